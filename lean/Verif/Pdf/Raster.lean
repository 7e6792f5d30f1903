import Verif.Raster.Page
import Verif.Core.Double

/-!
# From rendered pages to bitmaps: `copy_raster_buffer`, lib/pdf2printable.cpp 222-310

Luminosities are doubles in the code. They enter as a parameter: how a pixel's luminosity (times nothing, or plus a debt) becomes an
integer; so that what is proved holds for every way of rounding. `codeLuminosity` is the one of the code, with double precision.
-/

namespace Verif.Pdf

/-- A pixel of cairo's RGB24 format, a `uint32_t`. -/
abbrev Rgb := Nat

/-- Lines 23-25 -/
def red (p : Rgb) : Nat := p / 65536 % 256
def green (p : Rgb) : Nat := p / 256 % 256
def blue (p : Rgb) : Nat := p % 256

/-- What becomes of `RGB32_GRAY` (lines 26-28) where it is used. -/
structure Luminosity where
  /-- line 252: `int pixel = RGB32_GRAY(p) + debt` -/
  plus : Rgb → Int → Int
  /-- line 279: `tmp[i] = RGB32_GRAY(p)` -/
  gray : Rgb → UInt8
  /-- line 279: `tmp[i] = 255 - RGB32_GRAY(p)` -/
  black : Rgb → UInt8

/-- `RGB32_GRAY`, lines 20-28, in double precision. -/
def rgbGray (p : Rgb) : Rat :=
  dbl (dbl (dbl (red p * dbl (299 / 1000)) + dbl (green p * dbl (587 / 1000))) + dbl (blue p * dbl (114 / 1000)))

/-- The luminosity as it is computed. -/
def codeLuminosity : Luminosity where
  plus p d := truncate (dbl (rgbGray p + d))
  gray p := UInt8.ofNat (truncate (rgbGray p)).toNat
  black p := UInt8.ofNat (truncate (dbl (255 - rgbGray p))).toNat

/-! ## Dithering, lines 236-273 -/

/-- Reading an array. -/
def geti {α : Type} (l : List α) (i : Nat) : Outcome α :=
  match l[i]? with
  | some x => .ok x
  | none => .ub

/-- Writing an array. -/
def seti {α : Type} (l : List α) (i : Nat) (x : α) : Outcome (List α) := if i < l.length then .ok (l.set i x) else .ub

/-- The result of `int` arithmetic. -/
def int32 (n : Int) : Outcome Int := if -2147483648 ≤ n ∧ n ≤ 2147483647 then .ok n else .ub

/-- `debtArray`, `nextDebt`, `tmp` -/
structure Dither where
  debts : List Int
  nextDebt : Int
  tmp : Bytes
  deriving DecidableEq, Repr

/-- Lines 259-269: ink on a pixel; `at` is the index of the byte. -/
def ink (black : Bool) (col : Nat) (b : UInt8) : UInt8 := if black then b ||| (0x80 >>> UInt8.ofNat (col % 8)) else b &&& ~~~(0x80 >>> UInt8.ofNat (col % 8))

/-- Lines 252-269 -/
def ditherPixel (plus : Rgb → Int → Int) (black : Bool) (data : List Rgb) (startBytes startPixels col : Nat) (s : Dither) : Outcome Dither := do
  let rgb ← geti data (startPixels + col)
  let pixel := plus rgb s.nextDebt
  let newpixel : Int := if pixel < 128 then 0 else 255
  let debt ← int32 (pixel - newpixel)
  let x := debt.tdiv 16
  let d ← geti s.debts (col + 2)
  let next ← int32 (d + 7 * x)
  let d0 ← geti s.debts col
  let e0 ← int32 (d0 + 3 * x)
  let debts ← seti s.debts col e0
  let d1 ← geti debts (col + 1)
  let e1 ← int32 (d1 + 5 * x)
  let debts ← seti debts (col + 1) e1
  let debts ← seti debts (col + 2) x
  if newpixel = 0 then
    let b ← geti s.tmp (startBytes + col / 8)
    let tmp ← seti s.tmp (startBytes + col / 8) (ink black col b)
    return { debts := debts, nextDebt := next, tmp := tmp }
  else return { debts := debts, nextDebt := next, tmp := s.tmp }

/-- Lines 250-270: `n` more columns. -/
def ditherCols (plus : Rgb → Int → Int) (black : Bool) (data : List Rgb) (startBytes startPixels : Nat) : Nat → Nat → Dither → Outcome Dither
  | 0, _, s => .ok s
  | n + 1, col, s => (ditherPixel plus black data startBytes startPixels col s).bind (ditherCols plus black data startBytes startPixels n (col + 1))

/-- Lines 245-271: `n` more lines. -/
def ditherLines (plus : Rgb → Int → Int) (black : Bool) (data : List Rgb) (w wBytes : Nat) : Nat → Nat → Dither → Outcome Dither
  | 0, _, s => .ok s
  | n + 1, line, s =>
    (ditherCols plus black data (line * wBytes) (line * w) w 0 { s with nextDebt := 0 }).bind (ditherLines plus black data w wBytes n (line + 1))

/-- Lines 242-244 -/
def ditherStart (black : Bool) (w size : Nat) : Dither :=
  { debts := List.replicate (w + 2) 0, nextDebt := 0, tmp := List.replicate size (if black then 0 else 255) }

/-! ## The other color modes, lines 274-309 -/

/-- Lines 297-301 -/
def cmykOf (p : Rgb) : Bytes :=
  let blackDiff := max (max (red p) (green p)) (blue p)
  [UInt8.ofNat (blackDiff - red p), UInt8.ofNat (blackDiff - green p), UInt8.ofNat (blackDiff - blue p), UInt8.ofNat (255 - blackDiff)]

/-- Lines 287-289 -/
def rgbOf (p : Rgb) : Bytes := [UInt8.ofNat (red p), UInt8.ofNat (green p), UInt8.ofNat (blue p)]

/-- The loops over all pixels: `size` of them are read. -/
def eachPixel (data : List Rgb) (size : Nat) (f : Rgb → Bytes) : Outcome Bytes :=
  if data.length < size then .ub else .ok ((data.take size).map f).flatten

/-- `copy_raster_buffer`, lines 222-310: the new contents of `bmpBts`. Without the 16-bit modes the buffer's size (lines 227-230) is what the loops write. -/
def copyRasterBuffer (lum : Luminosity) (p : Params) (data : List Rgb) : Outcome Bytes :=
  let size := p.widthPx * p.heightPx
  match p.colorMode with
  | .Gray1 | .Black1 => do
    let wBytes ← p.widthBytes
    let s ← ditherLines lum.plus p.isBlack data p.widthPx wBytes p.heightPx 0 (ditherStart p.isBlack p.widthPx (wBytes * p.heightPx))
    return s.tmp
  | .Gray8 | .Black8 => eachPixel data size (fun q => [if p.isBlack then lum.black q else lum.gray q])
  | .sRGB24 => eachPixel data size rgbOf
  | .CMYK32 => eachPixel data size cmykOf
  | .sRGB48 | .Gray16 => .throws .logicError

end Verif.Pdf
