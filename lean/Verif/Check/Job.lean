import Verif.Job.Model
import Verif.Printer.Model
import Verif.Discovery.Model

/-!
# The model against the project's own tests: attributes, jobs, printers, conversions

The expectations of tests/test.cpp 1483-2439 (ippprintjob_support, ippprintjob_empty, ippprintjob_set, finalize, additional_formats,
json, attribute_getters, converter, malicious_dns), asserted of the model by evaluation in the kernel. These are tests of the transcription,
not properties. `IppAttr::operator==` compares values only; where the test relies on that (the tag of "print-quality", 1781) the model's
tag is written here.
-/

namespace Verif.Check

open Verif Verif.Ipp Verif.Job Verif.Printer

/-- The initializer lists of the test, as maps. -/
def attrsOf (l : List (String × UInt8 × Value)) : Attrs := l.foldl (fun m e => KMap.assign m (ascii e.1) (e.2.1, e.2.2)) []

/-- The same for a list that is in the order of the names already. -/
def sortedAttrs (l : List (String × UInt8 × Value)) : Attrs := l.map (fun e => (ascii e.1, e.2.1, e.2.2))

/-- a string value -/
def vs (s : String) : Value := .str (ascii s)

/-- a list of strings -/
def vl (l : List String) : Value := .set (l.map vs)

/-- test.cpp 1485-1532; like the next ones put in order here -/
def supportAttrs : Attrs := sortedAttrs
  [("copies-default", 0x21, .int 1),
   ("copies-supported", 0x33, .range 1 999),
   ("document-format-default", 0x44, vs "application/octet-stream"),
   ("document-format-supported", 0x44, vl ["application/octet-stream", "image/urf", "image/pwg-raster", "application/pdf"]),
   ("media-bottom-margin-default", 0x21, .int 2),
   ("media-bottom-margin-supported", 0x21, .set [.int 2, .int 3, .int 4]),
   ("media-default", 0x44, vs "iso_a4_210x297mm"),
   ("media-left-margin-default", 0x21, .int 3),
   ("media-left-margin-supported", 0x21, .set [.int 3, .int 4]),
   ("media-ready", 0x44, vs "iso_a4_210x297mm"),
   ("media-right-margin-default", 0x21, .int 4),
   ("media-right-margin-supported", 0x21, .int 4),
   ("media-source-default", 0x44, vs "auto"),
   ("media-source-supported", 0x44, vl ["auto", "envelope", "manual", "tray-1"]),
   ("media-supported", 0x44, vl ["iso_a4_210x297mm", "na_letter_8.5x11in"]),
   ("media-top-margin-default", 0x21, .int 1),
   ("media-top-margin-supported", 0x21, .set [.int 1, .int 2, .int 3, .int 4]),
   ("media-type-default", 0x44, vs "stationery"),
   ("media-type-supported", 0x44, vl ["stationery", "cardstock", "labels"]),
   ("multiple-document-handling-default", 0x44, vs "separate-documents-uncollated-copies"),
   ("multiple-document-handling-supported", 0x44, vl ["single-document", "separate-documents-uncollated-copies", "separate-documents-collated-copies"]),
   ("number-up-default", 0x21, .int 1),
   ("number-up-supported", 0x21, .set [.int 1, .int 2, .int 4]),
   ("output-bin-default", 0x44, vs "face-down"),
   ("output-bin-supported", 0x44, vs "face-down"),
   ("page-ranges-supported", 0x22, .bool false),
   ("print-color-mode-default", 0x44, vs "auto"),
   ("print-color-mode-supported", 0x44, vl ["auto", "color", "monochrome"]),
   ("print-quality-default", 0x23, .int 4),
   ("print-quality-supported", 0x23, .set [.int 3, .int 4, .int 5]),
   ("print-scaling-default", 0x44, vs "auto"),
   ("print-scaling-supported", 0x44, vl ["auto", "fill", "fit"]),
   ("printer-resolution-default", 0x32, .res 600 600 3),
   ("printer-resolution-supported", 0x32, .set [.res 600 600 3, .res 600 1200 3]),
   ("sides-default", 0x44, vs "one-sided"),
   ("sides-supported", 0x44, vl ["one-sided", "two-sided-long-edge", "two-sided-short-edge"])]

/-- test.cpp 1838-1893 and 2157-2211 -/
def finalizeAttrs : Attrs := sortedAttrs
  [("copies-default", 0x21, .int 1),
   ("copies-supported", 0x33, .range 1 999),
   ("document-format-default", 0x44, vs "application/octet-stream"),
   ("document-format-supported", 0x44, vl ["application/octet-stream", "image/urf", "image/pwg-raster", "application/pdf"]),
   ("document-format-varying-attributes", 0x44, vs "copies-supported"),
   ("media-bottom-margin-default", 0x21, .int 2),
   ("media-bottom-margin-supported", 0x21, .set [.int 2, .int 3, .int 4]),
   ("media-default", 0x44, vs "iso_a4_210x297mm"),
   ("media-left-margin-default", 0x21, .int 3),
   ("media-left-margin-supported", 0x21, .set [.int 3, .int 4]),
   ("media-ready", 0x44, vs "iso_a4_210x297mm"),
   ("media-right-margin-default", 0x21, .int 4),
   ("media-right-margin-supported", 0x21, .int 4),
   ("media-source-default", 0x44, vs "auto"),
   ("media-source-supported", 0x44, vl ["auto", "envelope", "manual", "tray-1"]),
   ("media-supported", 0x44, vl ["iso_a4_210x297mm", "na_letter_8.5x11in"]),
   ("media-top-margin-default", 0x21, .int 1),
   ("media-top-margin-supported", 0x21, .set [.int 1, .int 2, .int 3, .int 4]),
   ("media-type-default", 0x44, vs "stationery"),
   ("media-type-supported", 0x44, vl ["stationery", "cardstock", "labels"]),
   ("multiple-document-handling-default", 0x44, vs "separate-documents-uncollated-copies"),
   ("multiple-document-handling-supported", 0x44, vl ["single-document", "separate-documents-uncollated-copies", "separate-documents-collated-copies"]),
   ("number-up-default", 0x21, .int 1),
   ("number-up-supported", 0x21, .set [.int 1, .int 2, .int 4]),
   ("output-bin-default", 0x44, vs "face-down"),
   ("output-bin-supported", 0x44, vs "face-down"),
   ("page-ranges-supported", 0x22, .bool false),
   ("print-color-mode-default", 0x44, vs "auto"),
   ("print-color-mode-supported", 0x44, vl ["auto", "color", "monochrome"]),
   ("print-quality-default", 0x23, .int 4),
   ("print-quality-supported", 0x23, .set [.int 3, .int 4, .int 5]),
   ("print-scaling-default", 0x44, vs "auto"),
   ("print-scaling-supported", 0x44, vl ["auto", "fill", "fit"]),
   ("printer-resolution-default", 0x32, .res 600 600 3),
   ("printer-resolution-supported", 0x32, .set [.res 600 600 3, .res 600 1200 3]),
   ("pwg-raster-document-resolution-supported", 0x32, .set [.res 300 300 3, .res 600 600 3]),
   ("pwg-raster-document-sheet-back", 0x44, vs "flipped"),
   ("sides-default", 0x44, vs "one-sided"),
   ("sides-supported", 0x44, vl ["one-sided", "two-sided-long-edge", "two-sided-short-edge"]),
   ("urf-supported", 0x44, vl ["RS300-600", "DM3"])]

/-- test.cpp 2244-2272 -/
def getterAttrs : Attrs := sortedAttrs
  [("document-format-supported", 0x44, vl ["application/octet-stream", "image/urf", "image/pwg-raster", "application/pdf"]),
   ("identify-actions-supported", 0x44, vl ["display", "sound"]),
   ("ipp-features-supported", 0x44, vl ["ipp-everywhere"]),
   ("ipp-versions-supported", 0x44, vl ["1.1", "2.0"]),
   ("marker-colors", 0x42, vl ["#FFFFFF", "none", "#00FFFF#FF00FF#FFFF00"]),
   ("marker-high-levels", 0x21, .set [.int 100, .int 100, .int 100]),
   ("marker-levels", 0x21, .set [.int 17, .int 42, .int 69]),
   ("marker-low-levels", 0x21, .set [.int 20, .int 20, .int 10]),
   ("marker-names", 0x42, vl ["Supply 1", "Supply 2", "Supply 3"]),
   ("marker-types", 0x44, vl ["toner", "opc", "ink-cartridge"]),
   ("pages-per-minute", 0x21, .int 42),
   ("pages-per-minute-color", 0x21, .int 17),
   ("printer-firmware-name", 0x42, vl ["Firmware 1", "Firmware 2"]),
   ("printer-firmware-string-version", 0x41, vl ["1.0", "2.0"]),
   ("printer-location", 0x41, vs "Printer Location"),
   ("printer-make-and-model", 0x41, vs "Printer Make and Model"),
   ("printer-name", 0x36, vs "Printer Name"),
   ("printer-settable-attributes-supported", 0x44, vl ["printer-name", "printer-location"]),
   ("printer-state", 0x23, .int 3),
   ("printer-state-message", 0x41, vs "State."),
   ("printer-state-reasons", 0x44, vs "none"),
   ("printer-uuid", 0x45, vs "urn:uuid:deadbeef")]

example : KMap.Sorted supportAttrs ∧ KMap.Sorted finalizeAttrs ∧ KMap.Sorted getterAttrs := by unfold KMap.Sorted; decide +kernel

/-! ## ippprintjob_support, 1534-1637 -/

/-- what `encode` and `decode` make of the attributes -/
def roundTrip : Outcome (Msg × Bytes) := do
  let bytes ← encodeMsg 1 { printerAttrs := supportAttrs }
  decodeMsg bytes

example : (roundTrip.bind fun r => .ok r.1.printerAttrs) = .ok supportAttrs := by decide +kernel
example : (roundTrip.bind fun r => encodeMsg 1 r.1) = encodeMsg 1 { printerAttrs := supportAttrs } := by decide +kernel

/-- a setting of strings: its default and its choices -/
def offers (s : Setting) (a : Attrs) (default : String) (l : List String) : Bool :=
  s.isSupported a && decide (s.getDefault a (vs "") = .ok (vs default)) && decide (s.choices a = .ok (l.map vs))

/-- a setting of numbers -/
def offersInts (s : Setting) (a : Attrs) (default : Int) (l : List Int) : Bool :=
  s.isSupported a && decide (s.getDefault a (.int 0) = .ok (.int default)) && decide (s.intChoices a = .ok (l.map .int))

example : (
    offers sSides supportAttrs "one-sided" ["one-sided", "two-sided-long-edge", "two-sided-short-edge"] &&
    offers sMedia supportAttrs "iso_a4_210x297mm" ["iso_a4_210x297mm", "na_letter_8.5x11in"] &&
    offers sMultipleDocumentHandling supportAttrs "separate-documents-uncollated-copies"
      ["single-document", "separate-documents-uncollated-copies", "separate-documents-collated-copies"] &&
    offersInts sNumberUp supportAttrs 1 [1, 2, 4] &&
    offersInts sNumberUp (KMap.assign supportAttrs (ascii "number-up-supported") (0x33, .range 1 4)) 1 [1, 2, 3, 4] &&
    offers sColorMode supportAttrs "auto" ["auto", "color", "monochrome"] &&
    offersInts sPrintQuality supportAttrs 4 [3, 4, 5] &&
    offers sScaling supportAttrs "auto" ["auto", "fill", "fit"] &&
    offers sDocumentFormat supportAttrs "application/octet-stream"
      ["application/octet-stream", "image/urf", "image/pwg-raster", "application/pdf"] &&
    offers sMediaType supportAttrs "stationery" ["stationery", "cardstock", "labels"] &&
    offers sMediaSource supportAttrs "auto" ["auto", "envelope", "manual", "tray-1"] &&
    offers sOutputBin supportAttrs "face-down" ["face-down"] &&
    offersInts sTopMargin supportAttrs 1 [1, 2, 3, 4] &&
    offersInts sBottomMargin supportAttrs 2 [2, 3, 4] &&
    offersInts sLeftMargin supportAttrs 3 [3, 4] &&
    offersInts sRightMargin supportAttrs 4 [4]) = true := by decide +kernel
example : sMedia.preferred (ascii "ready") supportAttrs = .ok [vs "iso_a4_210x297mm"] := by decide +kernel
example : sCopies.isSupported supportAttrs = true ∧ sCopies.getDefault supportAttrs (.int 0) = .ok (.int 1) := by decide +kernel
example : sCopies.integerSupports supportAttrs 0 = .ok false ∧ sCopies.integerSupports supportAttrs 1 = .ok true ∧
    sCopies.integerSupports supportAttrs 999 = .ok true ∧ sCopies.integerSupports supportAttrs 1000 = .ok false := by decide +kernel
example : sPageRanges.isSupported supportAttrs = true ∧
    Attrs.get supportAttrs .bool (ascii "page-ranges-supported") (.bool false) = .ok (.bool false) := by decide +kernel
example : sResolution.isSupported supportAttrs = true ∧ sResolution.getDefault supportAttrs (.res 0 0 0) = .ok (.res 600 600 3) ∧
    sResolution.choices supportAttrs = .ok [.res 600 600 3, .res 600 1200 3] := by decide +kernel

/-! ## ippprintjob_empty, 1639-1717 -/

example : [sSides, sMedia, sMultipleDocumentHandling, sColorMode, sScaling, sDocumentFormat, sMediaType, sMediaSource, sOutputBin].all
    (fun s => !s.isSupported [] && decide (s.getDefault [] (vs "") = .ok (vs "")) && decide (s.choices [] = .ok [])) = true := by
  decide +kernel
example : [sNumberUp, sPrintQuality, sTopMargin, sBottomMargin, sLeftMargin, sRightMargin].all
    (fun s => !s.isSupported [] && decide (s.getDefault [] (.int 0) = .ok (.int 0)) && decide (s.intChoices [] = .ok [])) = true := by
  decide +kernel
example : sMedia.preferred (ascii "ready") [] = .ok [] ∧ sCopies.isSupported [] = false ∧
    sCopies.getDefault [] (.int 0) = .ok (.int 0) ∧ sCopies.integerSupports [] 0 = .ok false ∧
    sCopies.integerSupports [] 1 = .ok false ∧ sPageRanges.isSupported [] = false ∧ sResolution.isSupported [] = false ∧
    sResolution.choices [] = .ok [] := by decide +kernel

/-! ## ippprintjob_set, 1719-1834 -/

/-- several settings, set one after the other; none when one of them is not set afterwards or reads differently -/
def setAll : List (Setting × Value) → Attrs → Option Attrs
  | [], a => some a
  | (s, v) :: r, a =>
    match s.set v a with
    | .ok b => if s.isSet b = .ok true ∧ s.get [] b v = .ok v then setAll r b else none
    | _ => none

example : setAll [(sSides, vs "two-sided"), (sMedia, vs "iso_a4_210x297mm"), (sCopies, .int 42),
      (sMultipleDocumentHandling, vs "separate-documents-collated-copies"), (sPageRanges, .set [.range 17 42]),
      (sPageRanges, .set [.range 1 2, .range 17 42]), (sNumberUp, .int 8), (sColorMode, vs "monochrome"), (sPrintQuality, .int 5),
      (sResolution, .res 600 600 3), (sScaling, vs "auto"), (sOutputBin, vs "face-down"), (sMediaType, vs "stationery"),
      (sMediaSource, vs "main"), (sTopMargin, .int 1), (sBottomMargin, .int 2), (sLeftMargin, .int 3), (sRightMargin, .int 4)] [] =
    some (attrsOf [("sides", 0x44, vs "two-sided"), ("media", 0x44, vs "iso_a4_210x297mm"), ("copies", 0x21, .int 42),
      ("multiple-document-handling", 0x44, vs "separate-documents-collated-copies"),
      ("page-ranges", 0x33, .set [.range 1 2, .range 17 42]), ("number-up", 0x21, .int 8), ("print-color-mode", 0x44, vs "monochrome"),
      ("print-quality", 0x23, .int 5), ("printer-resolution", 0x32, .res 600 600 3), ("print-scaling", 0x44, vs "auto"),
      ("output-bin", 0x44, vs "face-down"),
      ("media-col", 0x34, .coll (attrsOf [("media-type", 0x44, vs "stationery"), ("media-source", 0x44, vs "main"),
        ("media-top-margin", 0x21, .int 1), ("media-bottom-margin", 0x21, .int 2), ("media-left-margin", 0x21, .int 3),
        ("media-right-margin", 0x21, .int 4)]))]) := by decide +kernel
example : setAll [(sDocumentFormat, vs "application/pdf")] [] = some (attrsOf [("document-format", 0x49, vs "application/pdf")]) := by
  decide +kernel

/-! ## finalize, 1895-2110 -/

/-- a job with settings for the printer, finalized; none when setting, or finalizing, fails -/
def finalized (pa : Attrs) (op job : List (Setting × Value)) (input : String) (pages : Int) : Option PrintJob :=
  match setAll op [], setAll job [] with
  | some o, some j =>
    match finalize defaultPipelines (ascii input) pages { PrintJob.new pa [] with opAttrs := o, jobAttrs := j } with
    | .ok (none, k) => some k
    | _ => none
  | _, _ => none

/-- the four margins of the test -/
def testMargins : List (Setting × Value) := [(sTopMargin, .int 1), (sBottomMargin, .int 2), (sLeftMargin, .int 3), (sRightMargin, .int 4)]

/-- 1895-1934 -/
example : (finalized finalizeAttrs [] (testMargins ++ [(sResolution, .res 600 600 3), (sMedia, vs "na_letter_8.5x11in"),
      (sPageRanges, .set [.range 17 42]), (sSides, vs "two-sided-long-edge"), (sPrintQuality, .int 5), (sColorMode, vs "monochrome")])
      "application/pdf" 0).map (fun k => decide (k.opAttrs = attrsOf [("document-format", 0x49, vs "application/pdf")] ∧
    k.jobAttrs = attrsOf [("printer-resolution", 0x32, .res 600 600 3), ("media", 0x44, vs "na_letter_8.5x11in"),
      ("sides", 0x44, vs "two-sided-long-edge"), ("print-quality", 0x23, .int 5), ("print-color-mode", 0x44, vs "monochrome")] ∧
    k.params.format = .PDF ∧ k.paper.name = ascii "na_letter_8.5x11in" ∧ k.params.hwResW = 600 ∧ k.params.hwResH = 600 ∧
    k.params.pageRangeList = [(17, 42)] ∧ k.params.duplexMode = .TwoSidedLongEdge ∧ k.params.quality = .HighQuality ∧
    k.params.colorMode = .Gray8)) =
    some true := by decide +kernel

/-- 1936-1957 -/
example : (finalized finalizeAttrs [] [(sMedia, vs "iso_a4_210x297mm"), (sMediaSource, vs "tray-1"), (sMediaType, vs "cardstock")]
      "application/pdf" 0).map (fun k => decide (k.opAttrs = attrsOf [("document-format", 0x49, vs "application/pdf")] ∧
    k.jobAttrs = attrsOf [("media-col", 0x34, .coll (attrsOf [("media-type", 0x44, vs "cardstock"),
      ("media-size", 0x34, .coll (attrsOf [("x-dimension", 0x21, .int 21000), ("y-dimension", 0x21, .int 29700)])),
      ("media-source", 0x44, vs "tray-1")]))] ∧
    k.paper.name = ascii "iso_a4_210x297mm" ∧ k.params.mediaPosition = 20 ∧ k.params.mediaType = ascii "cardstock")) =
    some true := by decide +kernel

/-- 1959-1963: without PDF -/
def noPdf : Attrs := KMap.assign finalizeAttrs (ascii "document-format-supported")
  (0x44, vl ["application/octet-stream", "image/urf", "image/pwg-raster"])

/-- 1966-1979 -/
example : (finalized noPdf [] [(sResolution, .res 600 1200 3), (sCopies, .int 2)] "application/pdf" 0).map (fun k => decide (k.opAttrs = attrsOf [("document-format", 0x49, vs "image/pwg-raster")] ∧ k.jobAttrs = [] ∧ k.params.format = .PWG ∧
    k.params.hwResW = 600 ∧ k.params.hwResH = 600 ∧ k.params.backXformMode = .Flipped ∧ k.params.copies = 2)) =
    some true := by decide +kernel

/-- 1981-2000 -/
example : (finalized noPdf [(sDocumentFormat, vs "image/urf")] [(sResolution, .res 600 1200 3), (sCopies, .int 2)]
      "application/pdf" 0).map (fun k => decide (k.opAttrs = attrsOf [("document-format", 0x49, vs "image/urf")] ∧ k.jobAttrs = [] ∧ k.params.format = .URF ∧
    k.params.hwResW = 600 ∧ k.params.hwResH = 600 ∧ k.params.backXformMode = .Rotated ∧ k.params.copies = 2)) =
    some true := by decide +kernel

/-- 2002-2026 -/
example : (finalized (KMap.assign finalizeAttrs (ascii "document-format-supported")
        (0x44, vl ["application/octet-stream", "application/postscript", "image/urf", "image/pwg-raster"])) []
      (testMargins ++ [(sResolution, .res 600 600 3), (sPageRanges, .set [.range 17 42])]) "application/postscript" 0).map (fun k => decide (k.opAttrs = attrsOf [("document-format", 0x49, vs "application/postscript")] ∧
    k.jobAttrs = attrsOf [("printer-resolution", 0x32, .res 600 600 3), ("page-ranges", 0x33, .set [.range 17 42])] ∧
    k.params.format = .Invalid)) =
    some true := by decide +kernel

/-- 2028-2034: with JPEG -/
def withJpeg : Attrs := KMap.assign finalizeAttrs (ascii "document-format-supported")
  (0x44, vl ["application/octet-stream", "image/jpeg", "image/urf", "image/pwg-raster"])

/-- 2036-2055 -/
example : (finalized withJpeg [] (testMargins ++ [(sResolution, .res 600 600 3)]) "image/jpeg" 0).map (fun k => decide (k.opAttrs = attrsOf [("document-format", 0x49, vs "image/jpeg")] ∧
    k.jobAttrs = attrsOf [("printer-resolution", 0x32, .res 600 600 3),
      ("media-col", 0x34, .coll (attrsOf [("media-top-margin", 0x21, .int 1), ("media-bottom-margin", 0x21, .int 2),
        ("media-left-margin", 0x21, .int 3), ("media-right-margin", 0x21, .int 4)]))] ∧
    k.params.format = .Invalid)) =
    some true := by decide +kernel

/-- 2057-2084 -/
example : (finalized withJpeg [] (testMargins ++ [(sSides, vs "two-sided-long-edge"), (sCopies, .int 2)]) "application/pdf" 1).map (fun k => decide (k.opAttrs = attrsOf [("document-format", 0x49, vs "image/pwg-raster")] ∧ k.jobAttrs = attrsOf [("sides", 0x44, vs "one-sided")] ∧
    k.margins = ⟨1, 2, 3, 4⟩ ∧ k.params.format = .PWG ∧ k.params.colorMode = .sRGB24)) =
    some true := by decide +kernel

/-- 2086-2096 -/
example : (finalized withJpeg [] [(sSides, vs "two-sided-long-edge"), (sCopies, .int 2), (sPageRanges, .set [.range 17 17])]
      "application/pdf" 42).map (fun k => decide (k.opAttrs = attrsOf [("document-format", 0x49, vs "image/pwg-raster")] ∧ k.jobAttrs = attrsOf [("sides", 0x44, vs "one-sided")])) =
    some true := by decide +kernel

/-- 2098-2099: without color -/
def noColor : Attrs := KMap.assign withJpeg (ascii "print-color-mode-supported") (0x44, vl ["auto", "monochrome"])

/-- 2100-2105 -/
example : (finalized noColor [] [] "application/pdf" 0).map (fun k => decide (k.opAttrs = attrsOf [("document-format", 0x49, vs "image/pwg-raster")] ∧ k.params.format = .PWG ∧ k.params.colorMode = .Gray8)) =
    some true := by decide +kernel

/-- 2107-2112 -/
example : (finalized (KMap.assign noColor (ascii "compression-supported") (0x44, vl ["none", "deflate", "gzip"])) [] []
      "application/pdf" 0).map (fun k => decide (sCompression.get [] k.opAttrs (vs "") = .ok (vs "gzip"))) =
    some true := by decide +kernel

/-! ## additional_formats, 2114-2153 -/

/-- the formats added for a device id -/
def added (base : Attrs) (id : String) : Outcome (List Bytes) :=
  additionalDocumentFormats { addr := [], attrs := KMap.assign base (ascii "printer-device-id") (0x41, vs id) }

example : additionalDocumentFormats { addr := [], attrs := [] } = .ok [] := by decide +kernel
example : added [] "MANUFACTURER:Xerox;COMMAND SET:PDF,URF,JPEG;MODEL:WorkCentre 6515;URF:IS4-20,IFU20,OB10,CP255,DM1,MT1,PQ4-5,RS600,W8,SRGB24,V1.4,FN3" =
    .ok [ascii "application/pdf", ascii "image/urf"] := by decide +kernel
example : added [] "MFG:Canon;CMD:URF;MDL:SELPHY CP1300;CLS:PRINTER;URF:W8,SRGB24,V1.4,RS300,IS7,MT11,PQ4,OB9,IFU0,OFU0,CP99;" =
    .ok [ascii "image/urf"] := by decide +kernel
example : added [] "MANUFACTURER:Xerox;COMMAND SET:PCL 6 Emulation, PostScript Level 3 Emulation, URF, PWG, NPAP, PJL;MODEL:C230 Color Printer;CLS:PRINTER;DES:Xerox(R) C230 Color Printer;CID:XR_PCL6_XCPT_Color_A4;COMMENT:ECP1.0, LV_0924, LP_9D15, LF_00C7;" =
    .ok [ascii "application/postscript", ascii "image/pwg-raster", ascii "image/urf"] := by decide +kernel
example : added [] "MFG:EPSON;CMD:ESCPL2,BDC,D4,D4PX,ESCPR7,END4,GENEP,PWGRaster,URF;MDL:SC-P900 Series;CLS:PRINTER;DES:EPSON SC-P900 Series;CID:EpsonRGB;RID:02;DDS:401900;ELG:13F0;SN:583757503030333448;URF:CP1,PQ3-4-5,OB9,OFU0,RS360-720,SRGB24,ADOBERGB24-48,W8,IS18-20-21-22,V1.4,MT1-10-11;" =
    .ok [ascii "image/pwg-raster", ascii "image/urf"] := by decide +kernel
example : added [] "MFG:HP;CMD:PJL,PML,PWG_RASTER,URP;MDL:HP LaserJet MFP M28-M31;CLS:PRINTER;DES:HP LaserJet MFP M28w;MEM:MEM=279MB;PRN:W2G55A;S:0300000000000000000000000000000000;COMMENT:RES=600x2;LEDMDIS:USB#ff#04#01;CID:HPLJPCLMSMV1;MCT:MF;MCL:FL;MCV:2.0;" =
    .ok [ascii "image/pwg-raster"] := by decide +kernel
example : added [] "MFG:HP;MDL:DeskJet 3700 series;CMD:PCL3GUI,PJL,Automatic,JPEG,PCLM,AppleRaster,PWGRaster,DW-PCL,802.11,DESKJET,DYN;CLS:PRINTER;DES:T8X04B;CID:HPDeskjet_P976D;LEDMDIS:USB#FF#CC#00,USB#07#01#02,USB#FF#04#01;SN:CN69R3D24J06H3;S:038000C480a00001002c0000000c1400046;Z:05000001000008,12000,17000000000000,181;" =
    .ok [ascii "image/pwg-raster", ascii "image/urf"] := by decide +kernel
example : added (attrsOf [("document-format-supported", 0x44, vl ["application/octet-stream", "application/postscript", "image/urf"])]) "MFG:OKI DATA c332.js-CORP;CMD:PCL,XPS,IBMPPR,EPSONFX,POSTSCRIPT,PDF,PCLXL,HIPERMIP,URF;MDL:C332;CLS:PRINTER;DES:OKI c332.js-C332;CID:OK_N_B800;" =
    .ok [ascii "application/pdf"] := by decide +kernel

/-! ## json, 2155-2214 -/

example : attrsFromJson (attrsToJson finalizeAttrs) = .ok finalizeAttrs := by decide +kernel

/-! ## attribute_getters, 2216-2330 -/

/-- the printer of the test -/
def getterPrinter : Printer := { addr := [], attrs := getterAttrs }

example : supplies { addr := [], attrs := [] } = .ok [] ∧ firmware { addr := [], attrs := [] } = .ok [] ∧
    documentFormats { addr := [], attrs := [] } = .ok [] ∧ getString [] (ascii "printer-name") [] = .ok [] ∧
    getInteger [] (ascii "printer-state") = .ok 0 := by decide +kernel
example : getString getterAttrs (ascii "printer-name") [] = .ok (ascii "Printer Name") ∧
    getString getterAttrs (ascii "printer-uuid") [] = .ok (ascii "urn:uuid:deadbeef") ∧
    getInteger getterAttrs (ascii "printer-state") = .ok 3 ∧ isWarningState getterPrinter = .ok false ∧
    getInteger getterAttrs (ascii "pages-per-minute") = .ok 42 := by decide +kernel
example : firmware getterPrinter = .ok [(ascii "Firmware 1", ascii "1.0"), (ascii "Firmware 2", ascii "2.0")] := by decide +kernel
example : documentFormats getterPrinter =
    .ok [ascii "application/octet-stream", ascii "image/urf", ascii "image/pwg-raster", ascii "application/pdf"] := by decide +kernel
example : supplies getterPrinter = .ok
    [⟨ascii "Supply 1", ascii "toner", [ascii "#FFFFFF"], 17, 20, 100⟩, ⟨ascii "Supply 2", ascii "opc", [ascii "none"], 42, 20, 100⟩,
     ⟨ascii "Supply 3", ascii "ink-cartridge", [ascii "#00FFFF", ascii "#FF00FF", ascii "#FFFF00"], 69, 10, 100⟩] := by decide +kernel
example : ((supplies getterPrinter).bind fun l => .ok (l.map fun s => (getPercent s, isLow s))) =
    .ok [(.ok 17, true), (.ok 42, false), (.ok 69, false)] := by decide +kernel

/-! ## converter, 2332-2425 -/

/-- `possibleInputFormats` -/
def inputs (pl : Pipelines) (l : List String) : List Bytes := possibleInputFormats pl (l.map ascii)

/-- `getTargetFormat` -/
def target (pl : Pipelines) (input : String) (l : List String) : Option Bytes := getTargetFormat pl (ascii input) (l.map ascii)

example : inputs defaultPipelines [] = [] := by decide +kernel
example : inputs defaultPipelines ["application/pdf"] = [ascii "application/pdf"] ∧
    target defaultPipelines "application/pdf" ["application/pdf"] = some (ascii "application/pdf") := by decide +kernel
example : inputs defaultPipelines ["image/pwg-raster"] = [ascii "application/pdf", ascii "image/pwg-raster"] ∧
    target defaultPipelines "application/pdf" ["image/pwg-raster"] = some (ascii "image/pwg-raster") := by decide +kernel
example : inputs defaultPipelines ["image/urf"] = [ascii "application/pdf", ascii "image/urf"] ∧
    target defaultPipelines "application/pdf" ["image/urf"] = some (ascii "image/urf") := by decide +kernel
example : inputs defaultPipelines ["image/pwg-raster", "application/pdf"] = [ascii "application/pdf", ascii "image/pwg-raster"] ∧
    target defaultPipelines "application/pdf" ["image/pwg-raster", "application/pdf"] = some (ascii "application/pdf") := by decide +kernel
example : inputs defaultPipelines ["application/octet-stream", "image/pwg-raster", "application/pdf"] =
      [ascii "application/pdf", ascii "application/octet-stream", ascii "image/pwg-raster"] ∧
    target defaultPipelines "application/pdf" ["application/octet-stream", "image/pwg-raster", "application/pdf"] =
      some (ascii "application/pdf") := by decide +kernel
example : inputs defaultPipelines ["application/postscript", "application/pdf"] =
      [ascii "application/pdf", ascii "application/postscript"] ∧
    target defaultPipelines "application/pdf" ["application/postscript", "application/pdf"] = some (ascii "application/pdf") := by
  decide +kernel
example : inputs defaultPipelines ["image/pwg-raster", "application/postscript"] =
      [ascii "application/pdf", ascii "image/pwg-raster", ascii "application/postscript"] ∧
    target defaultPipelines "application/pdf" ["image/pwg-raster", "application/postscript"] = some (ascii "application/postscript") ∧
    target defaultPipelines "image/jpeg" ["image/pwg-raster", "application/postscript"] = none := by decide +kernel
example : target defaultPipelines "image/jpeg" ["application/octet-stream", "image/pwg-raster", "application/pdf", "image/jpeg"] =
    some (ascii "image/jpeg") := by decide +kernel
example : [("application/pdf", "application/pdf"), ("application/pdf", "image/pwg-raster"), ("application/pdf", "image/urf"),
      ("image/jpeg", "image/jpeg"), ("text/plain", "text/plain"), ("foo", "foo")].all
    (fun e => (getConvertFun defaultPipelines (ascii e.1) (ascii e.2)).isSome) = true := by decide +kernel
example : getConvertFun defaultPipelines (ascii "foo") (ascii "bar") = none := by decide +kernel

/-- 2396: a function is appended -/
def withFooBar : Pipelines := defaultPipelines ++ [((ascii "foo", ascii "bar"), .user 0)]

/-- 2401 -/
def withAaa : Pipelines := withFooBar ++ [((ascii "application/pdf", ascii "application/aaa"), .user 0)]

/-- 2414 -/
def withBbb : Pipelines := ((ascii "application/pdf", ascii "application/bbb"), .user 0) :: withAaa

example : getConvertFun withFooBar (ascii "foo") (ascii "bar") = some (.user 0) := by decide +kernel
example : inputs withAaa ["image/pwg-raster", "application/pdf", "application/aaa"] =
      [ascii "application/pdf", ascii "image/pwg-raster", ascii "application/aaa"] ∧
    target withAaa "application/pdf" ["image/pwg-raster", "application/pdf", "application/aaa"] = some (ascii "application/pdf") ∧
    target withAaa "application/pdf" ["application/aaa"] = some (ascii "application/aaa") := by decide +kernel
example : target withBbb "application/pdf" ["application/aaa", "application/bbb", "application/pdf"] = some (ascii "application/bbb") := by
  decide +kernel

/-! ## malicious_dns, 2429-2439 -/

example : Discovery.getAddr [] 0 = .throws .outOfRange := by decide +kernel
example : Discovery.getAddr ([2] ++ ascii "tr" ++ [2] ++ ascii "ol" ++ [0xc0, 0x03]) 0 = .throws .logicError := by decide +kernel

end Verif.Check
