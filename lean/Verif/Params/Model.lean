import Verif.Core.Bytes

/-!
# Model of `PrintParameters` (lib/printparameters.h, lib/printparameters.cpp)

The page geometry in pixels and points is an input of this model: the C++ class derives it from a
paper size in doubles (printparameters.cpp 16-109); that floating point derivation is not modelled here.
-/

namespace Verif

/-- lib/printparameters.h 19-26 -/
inductive Format where
  | PDF | Postscript | PWG | URF | Invalid
  deriving DecidableEq, Repr

/-- lib/printparameters.h 28-38 -/
inductive ColorMode where
  | sRGB24 | CMYK32 | Gray8 | Black8 | Gray1 | Black1 | sRGB48 | Gray16
  deriving DecidableEq, Repr

/-- lib/printparameters.h 40-46 -/
inductive Quality where
  | DefaultQuality | DraftQuality | NormalQuality | HighQuality
  deriving DecidableEq, Repr

/-- the numeric values of lib/printparameters.h 40-46 -/
def Quality.toNat : Quality → Nat
  | .DefaultQuality => 0
  | .DraftQuality => 3
  | .NormalQuality => 4
  | .HighQuality => 5

/-- lib/printparameters.h 48-54 -/
inductive BackXform where
  | Normal | Rotated | Flipped | ManualTumble
  deriving DecidableEq, Repr

/-- lib/printparameters.h 134-139 -/
inductive DuplexMode where
  | OneSided | TwoSidedLongEdge | TwoSidedShortEdge
  deriving DecidableEq, Repr

/-- lib/printparameters.h 110-153, with the members that the modelled code reads. `widthPx`, `heightPx` stand
for `getPaperSizeWInPixels()`, `getPaperSizeHInPixels()`; `widthPt`, `heightPt` for
`round(getPaperSizeWInPoints())`, `round(getPaperSizeHInPoints())`. `mediaPosition` is the numeric value of the
enumeration at lines 56-108 (0..49). -/
structure Params where
  format : Format := .PDF
  colorMode : ColorMode := .sRGB24
  quality : Quality := .DefaultQuality
  paperSizeName : Bytes := ascii "iso_a4_210x297mm"
  hwResW : Nat := 300
  hwResH : Nat := 300
  widthPx : Nat := 2480
  heightPx : Nat := 3507
  widthPt : Nat := 595
  heightPt : Nat := 842
  duplexMode : DuplexMode := .OneSided
  backXformMode : BackXform := .Normal
  copies : Nat := 1
  collatedCopies : Bool := true
  pageRangeList : List (Nat × Nat) := []
  mediaPosition : Nat := 0
  mediaType : Bytes := []
  deriving DecidableEq, Repr

namespace Params

/-- printparameters.cpp 11-14 -/
def isTwoSided (p : Params) : Bool := p.duplexMode != .OneSided

/-- printparameters.cpp 271-288 -/
def isBlack (p : Params) : Bool :=
  match p.colorMode with
  | .sRGB24 | .CMYK32 | .Gray8 | .Gray1 | .sRGB48 | .Gray16 => false
  | .Black8 | .Black1 => true

/-- printparameters.cpp 290-308 -/
def numberOfColors (p : Params) : Nat :=
  match p.colorMode with
  | .sRGB24 | .sRGB48 => 3
  | .CMYK32 => 4
  | .Gray8 | .Black8 | .Gray1 | .Black1 | .Gray16 => 1

/-- printparameters.cpp 310-328 -/
def bitsPerColor (p : Params) : Nat :=
  match p.colorMode with
  | .sRGB24 | .CMYK32 | .Gray8 | .Black8 => 8
  | .Gray1 | .Black1 => 1
  | .sRGB48 | .Gray16 => 16

/-- printparameters.cpp 330-341 -/
def backHFlip (p : Params) : Bool :=
  if p.duplexMode = .TwoSidedLongEdge then p.backXformMode == .Rotated
  else if p.duplexMode = .TwoSidedShortEdge then
    p.backXformMode == .Flipped || p.backXformMode == .ManualTumble
  else false

/-- printparameters.cpp 343-354 -/
def backVFlip (p : Params) : Bool :=
  if p.duplexMode = .TwoSidedLongEdge then
    p.backXformMode == .Flipped || p.backXformMode == .Rotated
  else if p.duplexMode = .TwoSidedShortEdge then p.backXformMode == .ManualTumble
  else false

/-- `getPaperSizeWInBytes`, printparameters.cpp 111-126. -/
def widthBytes (p : Params) : Outcome Nat :=
  if p.bitsPerColor = 1 ∧ p.numberOfColors = 1 then .ok ((p.widthPx + 7) / 8)
  else if p.bitsPerColor % 8 = 0 then .ok (p.widthPx * p.numberOfColors * (p.bitsPerColor / 8))
  else .throws .logicError

/-- `getPaperSizeInBytes`, printparameters.cpp 128-131. -/
def sizeInBytes (p : Params) : Outcome Nat := do
  let w ← p.widthBytes
  return w * p.heightPx

end Params
end Verif
