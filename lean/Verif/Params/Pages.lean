import Verif.Params.Model
import Verif.Text.Model
import Verif.Core.Double

/-!
# Model of page ranges, page sequences and paper sizes (lib/printparameters.cpp 16-109, 133-269)
-/

namespace Verif

/-- `for(size_t p = first; p <= last; p++) seq.push_back(p)`, printparameters.cpp 140-143. Simplification: `last` is less
than 2^64-1, so that `p++` cannot wrap around (`last` is at most the page count of a document). -/
def pagesFromTo (p last : Nat) : List Nat :=
  if p ≤ last then p :: pagesFromTo (p + 1) last else []
  termination_by last + 1 - p

/-- The loop at printparameters.cpp 138-144. -/
def selectedPages (ranges : List (Nat × Nat)) (pages : Nat) : List Nat :=
  ranges.foldl (fun seq r => seq ++ pagesFromTo r.1 (min r.2 pages)) []

/-- `n` times the page or the sheet, printparameters.cpp 169-173, 178-181. -/
def pushTimes (n : Nat) (l : List Nat) (copy : List Nat) : List Nat :=
  match n with
  | 0 => copy
  | n + 1 => pushTimes n l (copy ++ l)

/-- The loop at printparameters.cpp 163-183, two-sided case. An odd element dereferences the end iterator (line 168). -/
def uncollatedSheets (copies : Nat) (copy : List Nat) : List Nat → Outcome (List Nat)
  | [] => .ok copy
  | [_] => .ub
  | front :: back :: rest => uncollatedSheets copies (pushTimes copies [front, back] copy) rest

/-- The loop at printparameters.cpp 163-183, one-sided case. -/
def uncollatedPages (copies : Nat) (copy : List Nat) : List Nat → List Nat
  | [] => copy
  | page :: rest => uncollatedPages copies (pushTimes copies [page] copy) rest

/-- `getPageSequence`, printparameters.cpp 133-188; `INVALID_PAGE` is 0 (printparameters.h 10). -/
def Params.pageSequence (p : Params) (pages : Nat) : Outcome (List Nat) :=
  let tmp := if p.pageRangeList = [] then [(1, pages)] else p.pageRangeList
  let seq := selectedPages tmp pages
  if p.copies > 1 then
    let seq := if p.isTwoSided ∧ seq.length % 2 = 1 then seq ++ [0] else seq
    if p.collatedCopies then .ok (pushTimes (p.copies - 1) seq seq)
    else if p.isTwoSided then uncollatedSheets p.copies [] seq
    else .ok (uncollatedPages p.copies [] seq)
  else .ok seq

/-! ## Page range expressions -/

/-- The result of matching one element against the regular expressions at printparameters.cpp 193-194. -/
inductive RangeMatch where
  /-- `^([0-9]+)$` -/
  | single (ds : Bytes)
  /-- `^([0-9]+)-([0-9]*)$` -/
  | range (d1 d2 : Bytes)
  | none

/-- `std::regex_match` against `single`, then `range` (printparameters.cpp 201, 211). The digits before the first
non-digit are the only candidate for the first group. -/
def matchRange (s : Bytes) : RangeMatch :=
  let d1 := s.takeWhile isDigit
  let r := s.dropWhile isDigit
  if d1 = [] then .none
  else if r = [] then .single d1
  else if r.head? = some 45 ∧ (r.drop 1).all isDigit then .range d1 (r.drop 1)
  else .none

/-- The end of a range, printparameters.cpp 214. -/
def rangeTo (d2 : Bytes) : Outcome Nat := if d2 = [] then .ok sizeMax else stoul d2

/-- The loop of `parsePageRange`, printparameters.cpp 199-226. -/
def parseRanges (prevMax : Nat) (rangeList : List (Nat × Nat)) : List Bytes → Outcome (List (Nat × Nat))
  | [] => .ok rangeList
  | s :: rest =>
    match matchRange s with
    | .single ds => do
      let v ← stoul ds
      if v ≤ prevMax then return [] else parseRanges v (rangeList ++ [(v, v)]) rest
    | .range d1 d2 => do
      let from' ← stoul d1
      let to' ← rangeTo d2
      if to' < from' ∨ from' ≤ prevMax then return []
      else parseRanges to' (rangeList ++ [(from', to')]) rest
    | .none => .ok []

/-- `parsePageRange`, printparameters.cpp 190-228. -/
def parsePageRange (s : Bytes) : Outcome (List (Nat × Nat)) :=
  parseRanges 0 [] (Text.splitString [44] s)

/-- `setPageRange`, printparameters.cpp 230-234. -/
def Params.setPageRange (p : Params) (s : Bytes) : Outcome (Params × Bool) := do
  let l ← parsePageRange s
  return ({ p with pageRangeList := l }, !l.isEmpty)

/-! ## Paper size names -/

/-- lib/printparameters.h 118-126 -/
inductive PaperUnits where
  | Pixels | Millimeters | Inches
  deriving DecidableEq, Repr

/-- The members of `PrintParameters` that `setPaperSize` writes (printparameters.h 113, 128-130). The doubles are the rational numbers
that they stand for. -/
structure Paper where
  name : Bytes := ascii "iso_a4_210x297mm"
  units : PaperUnits := .Millimeters
  w : Rat := 210
  h : Rat := 297
  deriving DecidableEq, Repr

/-- `from_string`, printparameters.cpp 236-246, with doubles. `pow(10, n)` is taken to be the double nearest to `10 ^ n`. -/
def fromString (str : Bytes) : Outcome Rat := do
  let dotAt := str.takeWhile (· ≠ 46)
  let res ← stoul dotAt
  match str.dropWhile (· ≠ 46) with
  | [] => return dbl res
  | _ :: decimalString => do
    let d ← stoul decimalString
    return dbl (dbl res + dbl (dbl d / dbl ((10 : Rat) ^ decimalString.length)))

/-- `[0-9a-z_-]` -/
def isNameChar (b : UInt8) : Bool := isDigit b || (97 ≤ b && b ≤ 122) || b == 95 || b == 45

/-- `[0-9]+([.][0-9]+)?` against a whole string. -/
def matchNumber (s : Bytes) : Bool :=
  let d1 := s.takeWhile isDigit
  let r := s.dropWhile isDigit
  d1 != [] && (r == [] || (r.head? == some 46 && r.drop 1 != [] && (r.drop 1).all isDigit))

/-- `std::regex_match` against the expression at printparameters.cpp 250; the result holds the groups 1, 3 and 5. A
deterministic way to match it: neither numbers nor the unit have a `_`, and the numbers have no `x`, so the name ends at the last
`_` and the first number at the first `x` after it. -/
def matchPaper (s : Bytes) : Option (Bytes × Bytes × Bytes) :=
  let tail := (s.reverse.takeWhile (· ≠ 95)).reverse
  let front := (s.reverse.dropWhile (· ≠ 95)).reverse.dropLast
  let num1 := tail.takeWhile (· ≠ 120)
  let rest := (tail.dropWhile (· ≠ 120)).drop 1
  let num2 := rest.take (rest.length - 2)
  let unit := rest.drop (rest.length - 2)
  if front ≠ [] ∧ front.all isNameChar ∧ s.contains 95 ∧ tail.contains 120 ∧ matchNumber num1 ∧ matchNumber num2 ∧
      (unit = ascii "mm" ∨ unit = ascii "in") then some (num1, num2, unit) else none

/-- What `setPaperSize` leaves behind: the returned value or the exception, and the state of the object. -/
structure PaperResult where
  ret : Outcome Bool
  paper : Paper
  deriving DecidableEq, Repr

/-- `setPaperSize`, printparameters.cpp 248-269; an exception from `from_string` leaves the members written before it. -/
def setPaperSize (p : Paper) (sizeStr : Bytes) : PaperResult :=
  match matchPaper sizeStr with
  | some (m1, m3, m5) =>
    let p := { p with name := sizeStr }
    match fromString m1 with
    | .ok w =>
      let p := { p with w := w }
      match fromString m3 with
      | .ok h =>
        let p := { p with h := h }
        if m5 = ascii "in" then ⟨.ok true, { p with units := .Inches }⟩ else ⟨.ok true, { p with units := .Millimeters }⟩
      | .throws e => ⟨.throws e, p⟩
      | .ub => ⟨.ub, p⟩
      | .hang => ⟨.hang, p⟩
    | .throws e => ⟨.throws e, p⟩
    | .ub => ⟨.ub, p⟩
    | .hang => ⟨.hang, p⟩
  | none => ⟨.ok false, p⟩

/-! ## Paper sizes, with doubles -/

/-- `MM_PER_IN`, printparameters.cpp 8 -/
def mmPerIn : Rat := dbl (254 / 10)

/-- `round2`, printparameters.h 185-188 -/
def roundHundredth (d : Rat) : Rat := dbl (roundAway (dbl (d * 100)) / 100)

/-- `getPaperSizeWInPixels`, `getPaperSizeHInPixels`, printparameters.cpp 16-44: `x` is the width or the height, `res` the resolution in that
direction. The size is taken to fit `size_t`. -/
def sizeInPixels (u : PaperUnits) (x : Rat) (res : Nat) : Nat :=
  match u with
  | .Pixels => x.floor.toNat
  | .Millimeters => (dbl (dbl (x * res) / mmPerIn)).floor.toNat
  | .Inches => (dbl (x * res)).floor.toNat

/-- `getPaperSizeWInMillimeters`, `getPaperSizeHInMillimeters`, printparameters.cpp 51-79 -/
def sizeInMillimeters (u : PaperUnits) (x : Rat) (res : Nat) : Rat :=
  match u with
  | .Pixels => roundHundredth (dbl (dbl (x / res) * mmPerIn))
  | .Millimeters => x
  | .Inches => roundHundredth (dbl (x * mmPerIn))

/-- `getPaperSizeWInPoints`, `getPaperSizeHInPoints`, printparameters.cpp 81-109 -/
def sizeInPoints (u : PaperUnits) (x : Rat) (res : Nat) : Rat :=
  match u with
  | .Pixels => roundHundredth (dbl (dbl (x / res) * 72))
  | .Millimeters => roundHundredth (dbl (dbl (x / mmPerIn) * 72))
  | .Inches => dbl (x * 72)

/-- The getters, for an object with these members: printparameters.cpp 16-29 -/
def paperWInPixels (p : Paper) (q : Params) : Nat := sizeInPixels p.units p.w q.hwResW

/-- printparameters.cpp 31-44 -/
def paperHInPixels (p : Paper) (q : Params) : Nat := sizeInPixels p.units p.h q.hwResH

/-- printparameters.cpp 51-64 -/
def paperWInMillimeters (p : Paper) (q : Params) : Rat := sizeInMillimeters p.units p.w q.hwResW

/-- printparameters.cpp 66-79 -/
def paperHInMillimeters (p : Paper) (q : Params) : Rat := sizeInMillimeters p.units p.h q.hwResH

/-- printparameters.cpp 81-94 -/
def paperWInPoints (p : Paper) (q : Params) : Rat := sizeInPoints p.units p.w q.hwResW

/-- printparameters.cpp 96-109 -/
def paperHInPoints (p : Paper) (q : Params) : Rat := sizeInPoints p.units p.h q.hwResH

end Verif
