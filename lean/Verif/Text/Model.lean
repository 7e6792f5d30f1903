import Verif.Core.Text

/-!
# Model of lib/stringutils.h and of the text converter in lib/converter.h
-/

namespace Verif.Text

/-- `s.find(tok, pos)` on the part of the string from `pos` on: the first place where `tok` occurs, relative to `pos`. -/
def findTok (tok : Bytes) : Bytes → Option Nat
  | [] => if tok = [] then some 0 else none
  | c :: t => if tok.isPrefixOf (c :: t) then some 0 else (findTok tok t).map (· + 1)

/-- `split_string`, lib/stringutils.h 31-42, on the part of the string from `pos` on. The position moves on by one
character after a match, whatever the length of `tok` (line 39). -/
def splitString (tok s : Bytes) : List Bytes :=
  let found := min s.length ((findTok tok s).getD s.length)
  if h : found < s.length then s.take found :: splitString tok (s.drop (found + 1))
  else [s.take found]
  termination_by s.length

/-- `join_string`, lib/stringutils.h 44-56. -/
def joinString (sep : Bytes) : List Bytes → Bytes
  | [] => []
  | x :: xs => xs.foldl (fun res e => res ++ (sep ++ e)) x

/-- `string_starts_with`, lib/stringutils.h 8-15 -/
def startsWith (s start : Bytes) : Bool :=
  if start.length ≤ s.length then s.take start.length == start else false

/-- `string_ends_with`, lib/stringutils.h 17-24 -/
def endsWith (s ending : Bytes) : Bool :=
  if ending.length ≤ s.length then s.drop (s.length - ending.length) == ending else false

/-- `string_contains`, lib/stringutils.h 26-29 -/
def contains (s what : Bytes) : Bool := (findTok what s).isSome

/-- The text produced by `FixupText`, lib/converter.h 76-83 (reading the file and writing the result are not modelled). -/
def fixupText (allText : Bytes) : Bytes :=
  let lines := (splitString [13, 10] allText).foldl (fun lines rnline => lines ++ splitString [10] rnline) []
  joinString [13, 10] lines

end Verif.Text
