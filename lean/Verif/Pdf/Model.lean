import Verif.Pdf.Raster
import Verif.Pdf.Scale

/-!
# `pdf_to_printable`, lib/pdf2printable.cpp 55-220

poppler and cairo are parameters: the document's pages and their sizes, what drawing a page does to an image, and what a surface for PDF or PostScript
writes. So are the callback that takes the data and the luminosity.
-/

namespace Verif.Pdf

open Raster

/-- What is drawn on a page of output: a page of the document in its place, or nothing. -/
abbrev Drawn := Option (Nat × Scale)

/-- poppler and cairo -/
structure Library where
  /-- lines 78-96: the number of pages, if the document can be opened -/
  pages : Option Nat
  /-- line 171: the size of a page (counted from 1) -/
  size : Nat → Rat × Rat
  /-- lines 174-185: the image after drawing a page over it -/
  draw : Nat → Scale → List Rgb → List Rgb
  /-- line 188: `cairo_status` after these pages were drawn -/
  failed : List Drawn → Bool
  /-- `cairo_surface_show_page` on a surface for PDF or PostScript (line 193): what is written after these pages were drawn, since the page before -/
  shown : List Drawn → Bytes
  /-- `cairo_surface_finish` on such a surface (line 211): what is written at the end -/
  finished : List Drawn → Bytes

/-- What can be seen from outside: a block is given to the callback, and taken or not; progress is reported. -/
inductive Event where
  | write (block : Bytes) (taken : Bool)
  | progress (page total : Nat)
  deriving DecidableEq, Repr

/-- The returned `Error` -/
inductive Failure where
  | asymmetric | open | format | cairo | write
  deriving DecidableEq, Repr

/-- A call: what happened, and how it ended (`none` is success). -/
structure Run where
  events : List Event
  result : Outcome (Option Failure)
  deriving DecidableEq, Repr

/-- The blocks so far. -/
def blocks : List Event → List Bytes
  | [] => []
  | .write b _ :: rest => b :: blocks rest
  | .progress _ _ :: rest => blocks rest

/-- lines 67-68 -/
def isRaster (p : Params) : Bool := p.format == .PWG || p.format == .URF

/-- Lines 161-185: what is drawn for an element of the page sequence. -/
def drawnFor (lib : Library) (paper : Paper) (p : Params) (pageNo : Nat) : Drawn :=
  if pageNo ≠ 0 then some (pageNo, fixupScale (isRaster p) p.hwResW p.hwResH paper (lib.size pageNo).1 (lib.size pageNo).2) else none

/-- Lines 143-186: the image: white all over, then the page. -/
def image (lib : Library) (p : Params) : Drawn → List Rgb
  | none => List.replicate (p.widthPx * p.heightPx) 0xffffff
  | some (n, sc) => lib.draw n sc (List.replicate (p.widthPx * p.heightPx) 0xffffff)

/-- Lines 195-201: what is appended to `outBts` for a page. -/
def pageBytes (lum : Luminosity) (lib : Library) (p : Params) (outPageNo : Nat) (drawn : List Drawn) (d : Drawn) : Outcome Bytes :=
  if isRaster p then do
    let bmp ← copyRasterBuffer lum p (image lib p d)
    bmpToPwg p outPageNo bmp
  else .ok (lib.shown drawn)

/-- Lines 128-219. `taken` is the callback: whether the last of these blocks is taken. -/
def pagesLoop (lum : Luminosity) (lib : Library) (taken : List Bytes → Bool) (paper : Paper) (p : Params) (total : Nat) :
    List Nat → Nat → List Drawn → Bytes → List Event → Run
  | [], _, drawn, outBts, events =>
    let outBts := outBts ++ (if isRaster p then [] else lib.finished drawn)
    if outBts.length ≠ 0 then
      if taken (blocks events ++ [outBts]) then { events := events ++ [.write outBts true], result := .ok none }
      else { events := events ++ [.write outBts false], result := .ok (some .write) }
    else { events := events, result := .ok none }
  | pageNo :: rest, outPageNo, drawn, outBts, events =>
    let d := drawnFor lib paper p pageNo
    let drawn := drawn ++ [d]
    if lib.failed drawn then { events := events, result := .ok (some .cairo) }
    else
      match pageBytes lum lib p (outPageNo + 1) drawn d with
      | .ok b =>
        if taken (blocks events ++ [outBts ++ b]) then
          pagesLoop lum lib taken paper p total rest (outPageNo + 1) drawn [] (events ++ [.write (outBts ++ b) true, .progress (outPageNo + 1) total])
        else { events := events ++ [.write (outBts ++ b) false], result := .ok (some .write) }
      | .throws e => { events := events, result := .throws e }
      | .ub => { events := events, result := .ub }
      | .hang => { events := events, result := .hang }

/-- Lines 55-220. The paper is what `p.widthPx` … are derived from. What the surface for PDF or PostScript writes when it is made is part of what it
writes for the first page. -/
def pdfToPrintable (lum : Luminosity) (lib : Library) (taken : List Bytes → Bool) (paper : Paper) (p : Params) : Run :=
  if p.format = .URF ∧ p.hwResW ≠ p.hwResH then { events := [], result := .ok (some .asymmetric) }
  else
    match lib.pages with
    | none => { events := [], result := .ok (some .open) }
    | some pages =>
      match p.pageSequence pages with
      | .ok seq =>
        match p.format with
        | .URF => pagesLoop lum lib taken paper p seq.length seq 0 [] (urfFileHdr seq.length) []
        | .PWG => pagesLoop lum lib taken paper p seq.length seq 0 [] pwgFileHdr []
        | .PDF | .Postscript => pagesLoop lum lib taken paper p seq.length seq 0 [] [] []
        | .Invalid => { events := [], result := .ok (some .format) }
      | .throws e => { events := [], result := .throws e }
      | .ub => { events := [], result := .ub }
      | .hang => { events := [], result := .hang }

end Verif.Pdf
