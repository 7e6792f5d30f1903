import Verif.Core.Bytes

/-!
# Specification: names and queries in DNS messages (RFC 1035, sections 4.1.2 and 4.1.4)
-/

namespace Verif.Discovery.Spec

/-- The bytes `x` stand in `msg` at position `pos`. -/
def At (msg : Bytes) (pos : Nat) (x : Bytes) : Prop := ∃ a b, msg = a ++ x ++ b ∧ a.length = pos

/-- The name with these labels stands in `msg` at `pos` and ends before `stop`: labels of 1 to 63 bytes up to an empty one, or up to a reference
(14 bits) to an earlier place of the message. -/
inductive NameAt (msg : Bytes) : Nat → List Bytes → Nat → Prop
  | root {pos : Nat} : At msg pos [0] → NameAt msg pos [] (pos + 1)
  | label {pos stop : Nat} {l : Bytes} {ls : List Bytes} : 1 ≤ l.length → l.length ≤ 63 → At msg pos (UInt8.ofNat l.length :: l) →
      NameAt msg (pos + 1 + l.length) ls stop → NameAt msg pos (l :: ls) stop
  | reference {pos ref stop : Nat} {ls : List Bytes} : ref < 16384 → ref < pos → At msg pos (be16 (49152 + ref)) → NameAt msg ref ls stop →
      NameAt msg pos ls (pos + 2)

/-- Questions of type `qtype`, class IN, for these names, from `pos` to the end of the message. -/
inductive Questions (msg : Bytes) (qtype : Nat) : Nat → List (List Bytes) → Prop
  | nil : Questions msg qtype msg.length []
  | cons {pos stop : Nat} {name : List Bytes} {names : List (List Bytes)} : NameAt msg pos name stop → At msg stop (be16 qtype ++ be16 1) →
      Questions msg qtype (stop + 4) names → Questions msg qtype pos (name :: names)

/-- A query with the given number and these questions. -/
def QueryFor (msg : Bytes) (id qtype : Nat) (names : List (List Bytes)) : Prop :=
  names.length < 65536 ∧ At msg 0 (be16 id ++ be16 0 ++ be16 names.length ++ be16 0 ++ be16 0 ++ be16 0) ∧ Questions msg qtype 12 names

/-- The labels of a name: at least one, each of 1 to 63 bytes. -/
def Labels (ls : List Bytes) : Prop := ls ≠ [] ∧ ∀ l ∈ ls, 1 ≤ l.length ∧ l.length ≤ 63

/-- No label has a dot in it. -/
def NoDots (ls : List Bytes) : Prop := ∀ l ∈ ls, 46 ∉ l

/-- The labels joined by dots. -/
def dotted : List Bytes → Bytes
  | [] => []
  | [l] => l
  | l :: ls => l ++ 46 :: dotted ls

end Verif.Discovery.Spec
