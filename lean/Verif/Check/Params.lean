import Verif.Params.Pages
import Verif.Raster.Page

/-!
# A check of the model against the tests of `PrintParameters` in /repo (tests, not properties)

What tests/test.cpp 700-1209 and 1382-1442 demand of the program holds of the model.
-/

namespace Verif.Check

/-- The getters of a paper at resolutions, as `==` in the test compares them -/
def sizes (u : PaperUnits) (w h : Rat) (rw rh : Nat) : (Nat × Nat) × (Rat × Rat) × (Rat × Rat) :=
  let p : Paper := { units := u, w, h }
  let q : Params := { hwResW := rw, hwResH := rh }
  ((paperWInPixels p q, paperHInPixels p q), (paperWInMillimeters p q, paperHInMillimeters p q), (paperWInPoints p q, paperHInPoints p q))

/-- `round` of both -/
def rounded (x : Rat × Rat) : Int × Int := (roundAway x.1, roundAway x.2)

/-- printparameters, test.cpp 700-870, for A4: the pixels; the millimeters; the rounded points; then the same for the size in pixels -/
example : ∀ x ∈ [(300, 300, 2480, 3507), (600, 600, 4960, 7015), (600, 1200, 4960, 14031)],
    (sizes .Millimeters 210 297 x.1 x.2.1).1 = (x.2.2.1, x.2.2.2) ∧ (sizes .Millimeters 210 297 x.1 x.2.1).2.1 = (210, 297) ∧
    rounded (sizes .Millimeters 210 297 x.1 x.2.1).2.2 = (595, 842) ∧
    (sizes .Pixels x.2.2.1 x.2.2.2 x.1 x.2.1).1 = (x.2.2.1, x.2.2.2) ∧
    rounded (sizes .Pixels x.2.2.1 x.2.2.2 x.1 x.2.1).2.1 = (210, 297) ∧ rounded (sizes .Pixels x.2.2.1 x.2.2.2 x.1 x.2.1).2.2 = (595, 842) := by
  decide +kernel

/-- Letter: here the sizes are compared as doubles, without rounding. -/
example : ∀ x ∈ [(300, 300, 2550, 3300), (600, 600, 5100, 6600), (600, 1200, 5100, 13200)],
    (sizes .Inches (85 / 10) 11 x.1 x.2.1) = ((x.2.2.1, x.2.2.2), (dbl (2159 / 10), dbl (2794 / 10)), (612, 792)) ∧
    (sizes .Pixels x.2.2.1 x.2.2.2 x.1 x.2.1) = ((x.2.2.1, x.2.2.2), (dbl (2159 / 10), dbl (2794 / 10)), (612, 792)) := by
  decide +kernel

/-- The sizes in bytes -/
example : ∀ x ∈ [(2480, 3507), (4960, 7015), (4960, 14031), (2550, 3300), (5100, 6600)],
    ({ widthPx := x.1, heightPx := x.2 } : Params).widthBytes = .ok (x.1 * 3) ∧
    ({ widthPx := x.1, heightPx := x.2 } : Params).sizeInBytes = .ok (x.1 * x.2 * 3) := by
  decide +kernel

/-- `INVALID_PAGE`, printparameters.h 17 -/
def none' : Nat := 0

/-- pagerange, test.cpp 872-1069: mode, copies, collated, ranges, pages, and the sequence -/
example : ∀ x ∈ ([
    (.OneSided, 1, true, [(4, 7)], 100, [4, 5, 6, 7]),
    (.OneSided, 2, true, [(4, 7)], 100, [4, 5, 6, 7, 4, 5, 6, 7]),
    (.OneSided, 2, true, [(4, 6)], 100, [4, 5, 6, 4, 5, 6]),
    (.OneSided, 3, true, [(4, 6)], 100, [4, 5, 6, 4, 5, 6, 4, 5, 6]),
    (.TwoSidedLongEdge, 2, true, [(4, 6)], 100, [4, 5, 6, none', 4, 5, 6, none']),
    (.TwoSidedLongEdge, 3, true, [(4, 6)], 100, [4, 5, 6, none', 4, 5, 6, none', 4, 5, 6, none']),
    (.OneSided, 2, false, [(4, 7)], 100, [4, 4, 5, 5, 6, 6, 7, 7]),
    (.TwoSidedLongEdge, 2, false, [(4, 7)], 100, [4, 5, 4, 5, 6, 7, 6, 7]),
    (.OneSided, 3, true, [(1, 2), (5, 7)], 100, [1, 2, 5, 6, 7, 1, 2, 5, 6, 7, 1, 2, 5, 6, 7]),
    (.TwoSidedLongEdge, 3, true, [(1, 2), (5, 7)], 100, [1, 2, 5, 6, 7, none', 1, 2, 5, 6, 7, none', 1, 2, 5, 6, 7, none']),
    (.TwoSidedLongEdge, 3, true, [(1, 2), (6, 7)], 100, [1, 2, 6, 7, 1, 2, 6, 7, 1, 2, 6, 7]),
    (.OneSided, 2, false, [(1, 2), (5, 7)], 100, [1, 1, 2, 2, 5, 5, 6, 6, 7, 7]),
    (.TwoSidedLongEdge, 2, false, [(1, 2), (5, 7)], 100, [1, 2, 1, 2, 5, 6, 5, 6, 7, none', 7, none']),
    (.OneSided, 1, false, [], 3, [1, 2, 3]),
    (.OneSided, 2, true, [], 3, [1, 2, 3, 1, 2, 3]),
    (.OneSided, 2, false, [], 3, [1, 1, 2, 2, 3, 3]),
    (.TwoSidedLongEdge, 2, true, [], 3, [1, 2, 3, none', 1, 2, 3, none']),
    (.TwoSidedLongEdge, 2, false, [], 3, [1, 2, 1, 2, 3, none', 3, none'])] : List (DuplexMode × Nat × Bool × List (Nat × Nat) × Nat × List Nat)),
    ({ duplexMode := x.1, copies := x.2.1, collatedCopies := x.2.2.1, pageRangeList := x.2.2.2.1 } : Params).pageSequence x.2.2.2.2.1 = .ok x.2.2.2.2.2 := by
  decide +kernel

/-- The lengths that pagerange asks for -/
example : ∀ x ∈ [(([] : List (Nat × Nat)), 100, 100), ([(17, 42)], 42, 26), ([(17, 42)], 32, 16), ([(1, 2), (17, 42)], 42, 28), ([(1, 2), (17, 42)], 32, 18)],
    (({ pageRangeList := x.1 } : Params).pageSequence x.2.1).bind (fun s => .ok s.length) = .ok x.2.2 := by
  decide +kernel

/-- parse_pagerange, test.cpp 1071-1118 -/
example : ∀ x ∈ [("1", [(1, 1)]), ("1-1", [(1, 1)]), ("1,2,3", [(1, 1), (2, 2), (3, 3)]), ("1-3,5", [(1, 3), (5, 5)]),
    ("1-3,5,6,17-42", [(1, 3), (5, 5), (6, 6), (17, 42)]), ("1,", []), ("", []), (",", []), ("-,-", []), ("fail", []), ("fail1", []), ("fail,1-2", []),
    ("1-2,fail", []), ("1-0", []), ("0-1", []), ("1-2,2-3", []), ("1-,2-", [])],
    (({} : Params).setPageRange (ascii x.1)).bind (fun r => .ok (r.1.pageRangeList, r.2)) = .ok (x.2, x.2 != []) := by
  decide +kernel

/-- its end: open ranges -/
example : ∀ x ∈ [("2-", 3, [2, 3]), ("2-", 4, [2, 3, 4]), ("1,2-", 3, [1, 2, 3]), ("1,2-", 4, [1, 2, 3, 4])],
    (({} : Params).setPageRange (ascii x.1)).bind (fun r => if r.2 then r.1.pageSequence x.2.1 else .ub) = .ok x.2.2 := by
  decide +kernel

/-- parse_page_size, silly_locale_parse_page_size, test.cpp 1120-1173: what is accepted, compared as doubles -/
example : ∀ x ∈ [("iso_a4_210x297mm", (210 : Rat), (297 : Rat), PaperUnits.Millimeters), ("na_letter_8.5x11in", 85 / 10, 11, .Inches),
    ("jpn_chou2_111.1x146mm", 1111 / 10, 146, .Millimeters), ("a_1x1mm", 1, 1, .Millimeters), ("fuuuuu_13.37x42.69mm", 1337 / 100, 4269 / 100, .Millimeters)],
    setPaperSize {} (ascii x.1) = ⟨.ok true, { name := ascii x.1, units := x.2.2.2, w := dbl x.2.1, h := dbl x.2.2.1 }⟩ := by
  decide +kernel

/-- what is refused, and leaves the paper as it was -/
example : ∀ x ∈ ["", "_1x1mm", "a_1x1km", "a_11mm", "a_a1x1mm", "1.1x1.2mm"],
    setPaperSize { name := ascii "a_1x1mm", w := 1, h := 1 } (ascii x) = ⟨.ok false, { name := ascii "a_1x1mm", w := 1, h := 1 }⟩ := by
  decide +kernel

/-- color_mode, test.cpp 1175-1210 -/
example : ∀ x ∈ [(ColorMode.sRGB24, 3, 8, false), (.CMYK32, 4, 8, false), (.Gray8, 1, 8, false), (.Black8, 1, 8, true), (.Gray1, 1, 1, false),
    (.Black1, 1, 1, true), (.sRGB48, 3, 16, false), (.Gray16, 1, 16, false)],
    (({ colorMode := x.1 } : Params).numberOfColors, ({ colorMode := x.1 } : Params).bitsPerColor, ({ colorMode := x.1 } : Params).isBlack) = x.2 := by
  decide +kernel

/-- flip_logic, test.cpp 1382-1442: whether the back is flipped horizontally and vertically -/
example : ∀ x ∈ [(DuplexMode.OneSided, BackXform.Flipped, false, false), (.OneSided, .ManualTumble, false, false), (.OneSided, .Normal, false, false),
    (.OneSided, .Rotated, false, false), (.TwoSidedLongEdge, .Flipped, false, true), (.TwoSidedLongEdge, .ManualTumble, false, false),
    (.TwoSidedLongEdge, .Normal, false, false), (.TwoSidedLongEdge, .Rotated, true, true), (.TwoSidedShortEdge, .Flipped, true, false),
    (.TwoSidedShortEdge, .ManualTumble, true, true), (.TwoSidedShortEdge, .Normal, false, false), (.TwoSidedShortEdge, .Rotated, false, false)],
    (({ duplexMode := x.1, backXformMode := x.2.1 } : Params).backHFlip, ({ duplexMode := x.1, backXformMode := x.2.1 } : Params).backVFlip) = x.2.2 ∧
    ({ duplexMode := x.1 } : Params).isTwoSided = decide (x.1 ≠ .OneSided) := by
  decide +kernel

end Verif.Check
