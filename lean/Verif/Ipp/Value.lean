import Verif.Core.KMap

/-!
# IPP values (lib/ippattr.h)
-/

namespace Verif.Ipp

/-- `IppDateTime`, lib/ippattr.h 81-98 -/
structure DateTime where
  year : UInt16 := 0
  month : UInt8 := 0
  day : UInt8 := 0
  hour : UInt8 := 0
  minutes : UInt8 := 0
  seconds : UInt8 := 0
  deciSeconds : UInt8 := 0
  plusMinus : UInt8 := 43
  utcHOffset : UInt8 := 0
  utcMOffset : UInt8 := 0
  deriving DecidableEq, Repr

/-- `IppValue`, lib/ippattr.h 51-114: strings, ints (32 bit signed), booleans, `IppIntRange`, `IppResolution`, `IppDateTime`,
`IppOneSetOf` (a list) and `IppCollection` (a map from names to attributes, here the sorted list of the entries). An
attribute (`IppAttr`, lib/ippattr.h 116-138) is a tag and a value. -/
inductive Value where
  | str (s : Bytes)
  | int (i : Int)
  | bool (b : Bool)
  | range (low high : Int)
  | res (x y : UInt32) (units : UInt8)
  | date (d : DateTime)
  | set (l : List Value)
  | coll (m : List (Bytes × (UInt8 × Value)))
  deriving Repr

/-- `IppAttr`, lib/ippattr.h 116-138: tag and value. -/
abbrev Attr := UInt8 × Value

/-- `IppAttrs`, lib/ippattr.h 140-184, and `IppCollection`, 109-114. -/
abbrev Attrs := KMap Attr

/-! Equality of values is decidable (needed to evaluate concrete cases). -/

mutual
/-- equality test -/
def Value.eqb : Value → Value → Bool
  | .str a, .str b => a == b
  | .int a, .int b => a == b
  | .bool a, .bool b => a == b
  | .range a b, .range c d => a == c && b == d
  | .res a b c, .res d e f => a == d && b == e && c == f
  | .date a, .date b => a == b
  | .set a, .set b => eqbList a b
  | .coll a, .coll b => eqbMembers a b
  | _, _ => false

/-- equality test -/
def eqbList : List Value → List Value → Bool
  | [], [] => true
  | a :: x, b :: y => a.eqb b && eqbList x y
  | _, _ => false

/-- equality test -/
def eqbMembers : List (Bytes × (UInt8 × Value)) → List (Bytes × (UInt8 × Value)) → Bool
  | [], [] => true
  | (k, (t, v)) :: x, (k', (t', v')) :: y => k == k' && t == t' && v.eqb v' && eqbMembers x y
  | _, _ => false
end

mutual
theorem Value.eqb_iff : ∀ (a b : Value), a.eqb b = true ↔ a = b
  | .str a, b => by cases b <;> simp [Value.eqb]
  | .int a, b => by cases b <;> simp [Value.eqb]
  | .bool a, b => by cases b <;> simp [Value.eqb]
  | .range a b, c => by cases c <;> simp [Value.eqb]
  | .res a b c, d => by cases d <;> simp [Value.eqb, and_assoc]
  | .date a, b => by cases b <;> simp [Value.eqb]
  | .set a, b => by
    cases b <;> simp [Value.eqb]
    exact eqbList_iff a _
  | .coll a, b => by
    cases b <;> simp [Value.eqb]
    exact eqbMembers_iff a _

theorem eqbList_iff : ∀ (a b : List Value), eqbList a b = true ↔ a = b
  | [], b => by cases b <;> simp [eqbList]
  | x :: a, b => by
    cases b with
    | nil => simp [eqbList]
    | cons y b => simp [eqbList, Value.eqb_iff x y, eqbList_iff a b]

theorem eqbMembers_iff : ∀ (a b : List (Bytes × (UInt8 × Value))), eqbMembers a b = true ↔ a = b
  | [], b => by cases b <;> simp [eqbMembers]
  | (k, (t, v)) :: a, b => by
    cases b with
    | nil => simp [eqbMembers]
    | cons y b =>
      obtain ⟨k', t', v'⟩ := y
      simp [eqbMembers, Value.eqb_iff v v', eqbMembers_iff a b, and_assoc]
end

instance : DecidableEq Value := fun a b => decidable_of_iff _ (Value.eqb_iff a b)

end Verif.Ipp
