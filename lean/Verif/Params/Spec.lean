import Verif.Core.Text
import Verif.Core.Lists

/-!
# What page range expressions, page sequences and paper size names mean

Written without reference to the model in `Verif/Params/Pages.lean`.
-/

namespace Verif

/-- A non-empty string of decimal digits. -/
def Digits (ds : Bytes) : Prop := ds ≠ [] ∧ ∀ b ∈ ds, isDigit b = true

/-- A decimal number that fits `size_t`. -/
def Number (ds : Bytes) (n : Nat) : Prop := Digits ds ∧ digitsVal ds = n ∧ n ≤ sizeMax

/-- One element of a page range expression, and the pages it denotes (first and last). -/
inductive RangeItem : Bytes → Nat × Nat → Prop where
  | page {ds n} : Number ds n → RangeItem ds (n, n)
  | fromTo {d1 d2 a b} : Number d1 a → Number d2 b → a ≤ b → RangeItem (d1 ++ 45 :: d2) (a, b)
  | openEnd {d a} : Number d a → RangeItem (d ++ [45]) (a, sizeMax)

/-- The ranges are disjoint, in ascending order, and start at 1 or later. -/
def AscendingRanges (rs : List (Nat × Nat)) : Prop :=
  rs.Pairwise (fun x y => x.2 < y.1) ∧ ∀ x ∈ rs, 1 ≤ x.1 ∧ x.1 ≤ x.2

/-- The string is a page range expression for the ranges: the elements separated by commas. -/
def DenotesRanges (s : Bytes) (rs : List (Nat × Nat)) : Prop :=
  ∃ items : List Bytes, items ≠ [] ∧ All2 RangeItem items rs ∧ AscendingRanges rs ∧ s = [44].intercalate items

/-- No run of digits in the string is a number that does not fit `size_t`. -/
def NumbersFit (s : Bytes) : Prop := ∀ ds, ds <:+: s → Digits ds → digitsVal ds ≤ sizeMax

/-- The pages of `1..n` that are in one of the ranges, or all pages if there are no ranges. -/
def Selected (rs : List (Nat × Nat)) (n p : Nat) : Prop :=
  1 ≤ p ∧ p ≤ n ∧ (rs = [] ∨ ∃ r ∈ rs, r.1 ≤ p ∧ p ≤ r.2)

/-- A decimal number with optional fraction: the text, the digits before and after the point. -/
inductive DecimalText : Bytes → Bytes → Bytes → Prop where
  | whole {i} : Digits i → DecimalText i i []
  | frac {i f} : Digits i → Digits f → DecimalText (i ++ 46 :: f) i f

/-- The value of the decimal number `i.f`. -/
def decimalValue (i f : Bytes) : Rat := (digitsVal (i ++ f) : Rat) / (10 : Rat) ^ f.length

/-- A letter of a media name: digit, lower case letter, `_` or `-`. -/
def NameLetter (b : UInt8) : Prop := isDigit b = true ∨ (97 ≤ b ∧ b ≤ 122) ∨ b = 95 ∨ b = 45

/-- `s` is the media name `name_<w>x<h><unit>`, with `w = wi.wf`, `h = hi.hf`. -/
def PaperName (s wi wf hi hf unit : Bytes) : Prop :=
  ∃ name w h, name ≠ [] ∧ (∀ b ∈ name, NameLetter b) ∧ DecimalText w wi wf ∧ DecimalText h hi hf ∧
    (unit = ascii "mm" ∨ unit = ascii "in") ∧ s = name ++ [95] ++ w ++ [120] ++ h ++ unit

/-- `x` is `v`, up to a relative error of 2^-50. -/
def Near (x v : Rat) : Prop := v - v / 2 ^ 50 ≤ x ∧ x ≤ v + v / 2 ^ 50

/-- The number can be written with less than 53 binary digits and has at most 15 decimals. -/
def Short (i f : Bytes) : Prop := f.length ≤ 15 ∧ ∃ n k : Nat, n < 2 ^ 53 ∧ decimalValue i f * 2 ^ k = n

end Verif
