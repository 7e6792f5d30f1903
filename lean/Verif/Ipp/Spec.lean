import Verif.Ipp.Value

/-!
# Specification of IPP messages on the wire (RFC 8010, section 3), independent of the code's functions

An attribute is a sequence of tokens (tag, value without structure): one for a plain value, several for more than one value,
and begin/member-name/end tokens for collections. The first token carries the attribute's name, the others have an empty name.
-/

namespace Verif.Ipp.Spec

open Verif Verif.Ipp

/-- A signed 32-bit integer. -/
def InInt32 (i : Int) : Prop := -2147483648 ≤ i ∧ i < 2147483648

/-- Big-endian two's complement of a signed 32-bit integer. -/
def int4 (i : Int) : Bytes := be32 (if i < 0 then (i + 4294967296).toNat else i.toNat)

/-- Tags whose values are byte strings: octetString, text and name with and without language, keyword, uri, uriScheme, charset,
naturalLanguage, mimeMediaType. -/
def stringTags : List UInt8 := [0x30, 0x35, 0x36, 0x41, 0x42, 0x44, 0x45, 0x46, 0x47, 0x48, 0x49]

/-- A value without structure that has the type its tag asks for, and fits. -/
def PlainOk (tag : UInt8) : Value → Prop
  | .int i => (tag = 0x21 ∨ tag = 0x23) ∧ InInt32 i
  | .bool _ => tag = 0x22
  | .date _ => tag = 0x31
  | .res _ _ _ => tag = 0x32
  | .range l h => tag = 0x33 ∧ InInt32 l ∧ InInt32 h
  | .str s => tag ∈ stringTags ∧ s.length < 65536
  | .set _ => False
  | .coll _ => False

mutual
/-- A well-typed value for a tag: a plain one; or a collection of well-typed members with distinct names (in map order); or, except
within a list of values (`top = false`), a list of at least two values of these kinds. -/
def WellTyped (top : Bool) (tag : UInt8) : Value → Prop
  | .set l => top = true ∧ 2 ≤ l.length ∧ ListOk tag l
  | .coll m => tag = 0x34 ∧ KMap.Sorted m ∧ MembersOk m
  | .int i => PlainOk tag (.int i)
  | .bool b => PlainOk tag (.bool b)
  | .date d => PlainOk tag (.date d)
  | .res x y u => PlainOk tag (.res x y u)
  | .range l h => PlainOk tag (.range l h)
  | .str s => PlainOk tag (.str s)
/-- All values of a list are well-typed. -/
def ListOk (tag : UInt8) : List Value → Prop
  | [] => True
  | v :: r => WellTyped false tag v ∧ ListOk tag r
/-- All members of a collection are well-typed. -/
def MembersOk : List (Bytes × (UInt8 × Value)) → Prop
  | [] => True
  | (name, (tag, v)) :: r => name.length < 65536 ∧ WellTyped true tag v ∧ MembersOk r
end

/-- A group of attributes: distinct names in map order, names neither empty nor too long, well-typed values. -/
def GroupOk (g : Attrs) : Prop :=
  KMap.Sorted g ∧ ∀ name attr, (name, attr) ∈ g → name ≠ [] ∧ name.length < 65536 ∧ WellTyped true attr.1 attr.2

mutual
/-- The tokens of a value. -/
def tokens (tag : UInt8) : Value → List Attr
  | .set l => listTokens tag l
  | .coll m => (0x34, .str []) :: (memberTokens m ++ [(0x37, .str [])])
  | .int i => [(tag, .int i)]
  | .bool b => [(tag, .bool b)]
  | .date d => [(tag, .date d)]
  | .res x y u => [(tag, .res x y u)]
  | .range l h => [(tag, .range l h)]
  | .str s => [(tag, .str s)]
/-- The tokens of a list of values. -/
def listTokens (tag : UInt8) : List Value → List Attr
  | [] => []
  | v :: r => tokens tag v ++ listTokens tag r
/-- The tokens of the members of a collection: each preceded by its name. -/
def memberTokens : List (Bytes × (UInt8 × Value)) → List Attr
  | [] => []
  | (name, (tag, v)) :: r => (0x4A, .str name) :: (tokens tag v ++ memberTokens r)
end

/-- Length and contents of a plain value. -/
def plainBytes : Value → Bytes
  | .int i => be16 4 ++ int4 i
  | .bool b => be16 1 ++ [if b then 1 else 0]
  | .date d => be16 11 ++ (be16 d.year.toNat ++ [d.month, d.day, d.hour, d.minutes, d.seconds, d.deciSeconds, d.plusMinus,
      d.utcHOffset, d.utcMOffset])
  | .res x y u => be16 9 ++ (be32 x.toNat ++ be32 y.toNat ++ [u])
  | .range l h => be16 8 ++ (int4 l ++ int4 h)
  | .str s => be16 s.length ++ s
  | .set _ => []
  | .coll _ => []

/-- A token with a name. -/
def tokenBytes (name : Bytes) (t : Attr) : Bytes := [t.1] ++ (be16 name.length ++ (name ++ plainBytes t.2))

/-- Tokens without name. -/
def unnamedBytes (ts : List Attr) : Bytes := ts.flatMap (tokenBytes [])

/-- An attribute on the wire. -/
def attrBytes (name : Bytes) (attr : Attr) : Bytes :=
  match tokens attr.1 attr.2 with
  | [] => []
  | t :: ts => tokenBytes name t ++ unnamedBytes ts

/-- The attributes of a group on the wire. -/
def groupBytes (g : List (Bytes × Attr)) : Bytes := g.flatMap (fun e => attrBytes e.1 e.2)

end Verif.Ipp.Spec
