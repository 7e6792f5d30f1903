import Verif.Job.Convert
import Verif.Ipp.Setting
import Verif.Params.Pages
import Verif.Raster.Header

/-!
# Model of print jobs (lib/ippprintjob.h, lib/ippprintjob.cpp)

`finalize` is split into steps, one definition per paragraph of the C++ function.
-/

namespace Verif.Job

open Ipp
open Raster (i32ToNat natToI32)

/-- `std::stoi` (32-bit `int`): skips white space, takes an optional sign and the digits, ignores what follows. -/
def stoi (s : Bytes) : Outcome Int :=
  let t := s.dropWhile isSpace
  let neg := t.head? = some 45
  let u := if t.head? = some 45 ∨ t.head? = some 43 then t.drop 1 else t
  let ds := u.takeWhile isDigit
  if ds = [] then .throws .invalidArgument
  else
    let v : Int := if neg then -(digitsVal ds : Int) else digitsVal ds
    if v < -2147483648 ∨ 2147483647 < v then .throws .outOfRange else .ok v

/-- lib/ippprintjob.h 75-81 -/
structure Margins where
  top : Int := 0
  bottom : Int := 0
  left : Int := 0
  right : Int := 0
  deriving DecidableEq, Repr

/-- `IppPrintJob`, lib/ippprintjob.h 67-92. `paper` holds the paper size members of `printParams` (the pixel and point sizes in
`params` are not used here). -/
structure PrintJob where
  opAttrs : Attrs := []
  jobAttrs : Attrs := []
  params : Params := {}
  paper : Paper := {}
  targetFormat : Bytes := []
  oneStage : Bool := false
  margins : Margins := {}
  printerAttrs : Attrs := []
  additional : List Bytes := []
  deriving DecidableEq, Repr

/-- The constructor, lib/ippprintjob.h 12-14. -/
def PrintJob.new (printerAttrs : Attrs) (additional : List Bytes) : PrintJob := { printerAttrs, additional }

/-- The copy constructor, lib/ippprintjob.h 28-31 with 16-26: default values, then assignment of all members but
`_additionalDocumentFormats`. -/
def PrintJob.copy (other : PrintJob) : PrintJob :=
  { opAttrs := other.opAttrs, jobAttrs := other.jobAttrs, params := other.params, paper := other.paper,
    printerAttrs := other.printerAttrs, targetFormat := other.targetFormat, oneStage := other.oneStage,
    margins := other.margins }

/-! Typed reading. The fallbacks are the arguments in the code. -/

/-- The string in a value. -/
def strOf : Value → Bytes
  | .str s => s
  | _ => []

/-- The integer in a value. -/
def intOf : Value → Int
  | .int i => i
  | _ => 0

/-- `s.get(fallback)` for a setting of strings. -/
def getStr (s : Setting) (pa attrs : Attrs) (fallback : Bytes) : Outcome Bytes := do
  let v ← s.get pa attrs (.str fallback)
  return strOf v

/-- `s.get(fallback)` for a setting of integers. -/
def getInt (s : Setting) (pa attrs : Attrs) (fallback : Int) : Outcome Int := do
  let v ← s.get pa attrs (.int fallback)
  return intOf v

/-- `attrs.getList<std::string>(name)` -/
def strList (a : Attrs) (name : Bytes) : Outcome (List Bytes) := do
  let l ← Attrs.getList a .str name
  return l.map strOf

/-- `s.getSupported()` for a choice of strings -/
def supportedStrs (s : Setting) (pa : Attrs) : Outcome (List Bytes) := strList pa (s.name ++ ascii "-supported")

/-! ## Steps of finalize -/

/-- ippprintjob.cpp 169-174: the format from the settings, whether it is set; the format to start from -/
def startFormat (pl : Pipelines) (input target : Bytes) (isSet : Bool) : Bytes :=
  if isSet = false ∧ canConvert pl input target = false then octetStream else target

/-- ippprintjob.cpp 176-186 -/
def betterFormat (pl : Pipelines) (input : Bytes) (j : PrintJob) (target : Bytes) : Outcome Bytes :=
  if target = octetStream then do
    let supported ← supportedStrs sDocumentFormat j.printerAttrs
    return (getTargetFormat pl input (supported ++ j.additional)).getD target
  else .ok target

/-- `determineTargetFormat`, ippprintjob.cpp 166-187 -/
def determineTargetFormat (pl : Pipelines) (input : Bytes) (j : PrintJob) : Outcome Bytes := do
  let target ← getStr sDocumentFormat j.printerAttrs j.opAttrs octetStream
  let isSet ← sDocumentFormat.isSet j.opAttrs
  betterFormat pl input j (startFormat pl input target isSet)

/-- ippprintjob.cpp 15-23 -/
def setDocumentFormat (j : PrintJob) : Outcome PrintJob := do
  let supported ← supportedStrs sDocumentFormat j.printerAttrs
  let op ← sDocumentFormat.set (.str (if supported.contains j.targetFormat then j.targetFormat else octetStream)) j.opAttrs
  return { j with opAttrs := op }

/-- ippprintjob.cpp 33-40 -/
def chooseCompression (supported : List Bytes) (opAttrs : Attrs) : Outcome Attrs :=
  if supported.contains (ascii "gzip") then sCompression.set (.str (ascii "gzip")) opAttrs
  else if supported.contains (ascii "deflate") then sCompression.set (.str (ascii "deflate")) opAttrs
  else .ok opAttrs

/-- ippprintjob.cpp 30-41 -/
def setCompression (j : PrintJob) : Outcome PrintJob :=
  if isPrinterRaster j.targetFormat then do
    let supported ← supportedStrs sCompression j.printerAttrs
    let op ← chooseCompression supported j.opAttrs
    return { j with opAttrs := op }
  else .ok j

/-- ippprintjob.cpp 43: the returned value, and the job -/
def setPaper (j : PrintJob) : Outcome (Bool × PrintJob) := do
  let name ← getStr sMedia j.printerAttrs j.jobAttrs j.paper.name
  let r := setPaperSize j.paper name
  let ok ← r.ret
  return (ok, { j with paper := r.paper, params := { j.params with paperSizeName := r.paper.name } })

/-- ippprintjob.cpp 48-60 -/
def takeMargins (j : PrintJob) : Outcome PrintJob :=
  if isImage j.targetFormat then .ok j
  else do
    let top ← getInt sTopMargin j.printerAttrs j.jobAttrs 0
    let bottom ← getInt sBottomMargin j.printerAttrs j.jobAttrs 0
    let left ← getInt sLeftMargin j.printerAttrs j.jobAttrs 0
    let right ← getInt sRightMargin j.printerAttrs j.jobAttrs 0
    let a ← sTopMargin.unset j.jobAttrs
    let a ← sBottomMargin.unset a
    let a ← sLeftMargin.unset a
    let a ← sRightMargin.unset a
    return { j with margins := ⟨top, bottom, left, right⟩, jobAttrs := a }

/-- `int x = d*100`, ippprintjob.cpp 64-65: truncation of the double; undefined when it does not fit. -/
def hundredths (d : Rat) : Outcome Int :=
  let x := (dbl (d * 100)).floor
  if x > 2147483647 then .ub else .ok x

/-- ippprintjob.cpp 67-72 -/
def withMediaSize (mediaCol : Attrs) (x y : Int) : Attr :=
  (tBeginCollection, .coll (KMap.assign mediaCol (ascii "media-size")
    (tBeginCollection, .coll [(ascii "x-dimension", (tInteger, .int x)), (ascii "y-dimension", (tInteger, .int y))])))

/-- ippprintjob.cpp 62-74 -/
def addMediaSize (j : PrintJob) : Outcome PrintJob := do
  let isSet ← sMedia.isSet j.jobAttrs
  if KMap.has j.jobAttrs (ascii "media-col") ∧ isSet then do
    let x ← hundredths (paperWInMillimeters j.paper j.params)
    let y ← hundredths (paperHInMillimeters j.paper j.params)
    let mediaCol ← subCollection j.jobAttrs (ascii "media-col")
    let a ← sMedia.unset (KMap.assign j.jobAttrs (ascii "media-col") (withMediaSize mediaCol x y))
    return { j with jobAttrs := a }
  else return j

/-- ippprintjob.cpp 76-102 -/
def formatOf (input target : Bytes) : Format :=
  if input = pdf then
    if target = pdf then .PDF
    else if target = postscript then .Postscript
    else if target = pwg then .PWG
    else if target = urf then .URF
    else .Invalid
  else .Invalid

/-- ippprintjob.cpp 76-102 -/
def setFormat (input : Bytes) (j : PrintJob) : PrintJob :=
  { j with params := { j.params with format := formatOf input j.targetFormat } }

/-- The members of an `IppResolution` value. -/
def resOf : Value → Nat × Nat
  | .res x y _ => (x.toNat, y.toNat)
  | _ => (0, 0)

/-- ippprintjob.cpp 104-106 (3 is `IppResolution::DPI`) -/
def takeResolution (j : PrintJob) : Outcome PrintJob := do
  let v ← sResolution.get j.printerAttrs j.jobAttrs (.res (.ofNat j.params.hwResW) (.ofNat j.params.hwResH) 3)
  return { j with params := { j.params with hwResW := (resOf v).1, hwResH := (resOf v).2 } }

/-- An `int` as `size_t`. -/
def toSize (i : Int) : Nat := (i % 2 ^ 64).toNat

/-- The pair at ippprintjob.cpp 113 -/
def rangeOf : Value → Nat × Nat
  | .range l h => (toSize l, toSize h)
  | _ => (0, 0)

/-- ippprintjob.cpp 108-116 -/
def takeRanges (input : Bytes) (j : PrintJob) : Outcome PrintJob :=
  if input = pdf then do
    let ranges ← Attrs.getList j.jobAttrs .range (ascii "page-ranges")
    let a ← sPageRanges.unset j.jobAttrs
    return { j with params := { j.params with pageRangeList := j.params.pageRangeList ++ ranges.map rangeOf }, jobAttrs := a }
  else .ok j

/-! ### adjustRasterSettings, ippprintjob.cpp 189-315 -/

/-- `int(a-b)` for `uint32_t` values -/
def diff32 (a b : Nat) : Int := natToI32 ((a + 4294967296 - b) % 4294967296)

/-- `std::abs(int)` -/
def absInt (i : Int) : Outcome Int := if i = -2147483648 then .ub else .ok i.natAbs

/-- `a + b` for nonnegative `int`s -/
def addInt (a b : Int) : Outcome Int := if a + b > 2147483647 then .ub else .ok (a + b)

/-- `tmpDiff`, ippprintjob.cpp 210 -/
def resDiff (hw : Nat × Nat) (res : Nat × Nat) : Outcome Int := do
  let dx ← absInt (diff32 hw.1 res.1)
  let dy ← absInt (diff32 hw.2 res.2)
  addInt dx dy

/-- `res.units` -/
def unitsOf : Value → UInt8
  | .res _ _ u => u
  | _ => 0

/-- The loop at ippprintjob.cpp 204-217: `best` is the adjusted resolution, `diff` its difference. -/
def nearestPwg (hw : Nat × Nat) (diff : Int) (best : Nat × Nat) : List Value → Outcome (Nat × Nat)
  | [] => .ok best
  | v :: r =>
    if unitsOf v ≠ 3 then nearestPwg hw diff best r
    else do
      let d ← resDiff hw (resOf v)
      if d < diff then nearestPwg hw d (resOf v) r else nearestPwg hw diff best r

/-- The loop at ippprintjob.cpp 234-243. -/
def nearestUrf (hw : Nat) (diff : Int) (best : Nat) : List Bytes → Outcome Nat
  | [] => .ok best
  | s :: r => do
    let i ← stoi s
    let d ← absInt (diff32 hw (i32ToNat i))
    if d < diff then nearestUrf hw d (i32ToNat i) r else nearestUrf hw diff best r

/-- The loop at ippprintjob.cpp 229-247: the first entry that starts with "RS" decides. -/
def urfResolution (hw : Nat) : List Bytes → Outcome Nat
  | [] => .ok hw
  | us :: r =>
    if Text.startsWith us (ascii "RS") then nearestUrf hw 4294967295 hw (Text.splitString [45] (us.drop 2))
    else urfResolution hw r

/-- ippprintjob.cpp 198-248 -/
def adjustResolution (j : PrintJob) : Outcome PrintJob :=
  if j.params.format = .PWG then do
    let l ← Attrs.getList j.printerAttrs .res (ascii "pwg-raster-document-resolution-supported")
    let r ← nearestPwg (j.params.hwResW, j.params.hwResH) 4294967295 (j.params.hwResW, j.params.hwResH) l
    return { j with params := { j.params with hwResW := r.1, hwResH := r.2 } }
  else do
    let l ← strList j.printerAttrs (ascii "urf-supported")
    let r ← urfResolution (min j.params.hwResW j.params.hwResH) l
    return { j with params := { j.params with hwResW := r, hwResH := r } }

/-- ippprintjob.cpp 253-264 -/
def sheetBack (s : Bytes) (old : BackXform) : BackXform :=
  if s = ascii "flipped" then .Flipped
  else if s = ascii "rotated" then .Rotated
  else if s = ascii "manual-tumble" then .ManualTumble
  else old

/-- ippprintjob.cpp 269-280 -/
def urfBack (l : List Bytes) (old : BackXform) : BackXform :=
  if l.contains (ascii "DM2") then .Flipped
  else if l.contains (ascii "DM3") then .Rotated
  else if l.contains (ascii "DM4") then .ManualTumble
  else old

/-- ippprintjob.cpp 250-281 -/
def adjustBack (j : PrintJob) : Outcome PrintJob :=
  if j.params.format = .PWG then do
    let s ← Attrs.get j.printerAttrs .str (ascii "pwg-raster-document-sheet-back") (.str [])
    return { j with params := { j.params with backXformMode := sheetBack (strOf s) j.params.backXformMode } }
  else do
    let l ← strList j.printerAttrs (ascii "urf-supported")
    return { j with params := { j.params with backXformMode := urfBack l j.params.backXformMode } }

/-- ippprintjob.cpp 284-291 -/
def supportsCopies (pa : Attrs) : Outcome Bool := do
  let r ← Attrs.get pa .range (ascii "copies-supported") (.range 0 0)
  let varying ← strList pa (ascii "document-format-varying-attributes")
  return decide ((Setting.bounds r).2 > 1) && !(varying.contains (ascii "copies") || varying.contains (ascii "copies-supported"))

/-- `std::adjacent_find(..., std::not_equal_to)` finds nothing, ippprintjob.cpp 307 -/
def noTwoDifferent : List Nat → Bool
  | a :: b :: r => a == b && noTwoDifferent (b :: r)
  | _ => true

/-- ippprintjob.cpp 303-313, when `sides` is not "one-sided" -/
def dropDuplex (pages : Int) (j : PrintJob) (sides : Bytes) : Outcome PrintJob :=
  if sides = ascii "one-sided" then .ok j
  else do
    let seq ← j.params.pageSequence (toSize pages)
    if pages = 1 ∨ noTwoDifferent seq then do
      let a ← sSides.set (.str (ascii "one-sided")) j.jobAttrs
      return { j with jobAttrs := a }
    else return j

/-- ippprintjob.cpp 295-313 -/
def copyLocally (pages : Int) (requested : Int) (j : PrintJob) : Outcome PrintJob := do
  let copyMode ← getStr sMultipleDocumentHandling j.printerAttrs j.jobAttrs []
  let params := { j.params with
    copies := requested.toNat
    collatedCopies := if copyMode = ascii "separate-documents-uncollated-copies" then false else j.params.collatedCopies }
  let a ← sCopies.unset j.jobAttrs
  let sides ← getStr sSides j.printerAttrs a []
  dropDuplex pages { j with params := params, jobAttrs := a } sides

/-- ippprintjob.cpp 283-314 -/
def adjustCopies (pages : Int) (j : PrintJob) : Outcome PrintJob := do
  let requested ← getInt sCopies j.printerAttrs j.jobAttrs 1
  let supports ← supportsCopies j.printerAttrs
  if requested > 1 ∧ ¬ supports then copyLocally pages requested j else return j

/-- `adjustRasterSettings`, ippprintjob.cpp 189-315 -/
def adjustRaster (pages : Int) (j : PrintJob) : Outcome PrintJob :=
  if j.params.format = .PWG ∨ j.params.format = .URF then do
    let a ← sResolution.unset j.jobAttrs
    let j ← adjustResolution { j with jobAttrs := a }
    let j ← adjustBack j
    adjustCopies pages j
  else .ok j

/-! ### The rest of finalize -/

/-- ippprintjob.cpp 120-127 -/
def duplexOf (s : Bytes) (old : DuplexMode) : DuplexMode :=
  if s = ascii "two-sided-long-edge" then .TwoSidedLongEdge
  else if s = ascii "two-sided-short-edge" then .TwoSidedShortEdge
  else old

/-- ippprintjob.cpp 120-127 -/
def takeSides (j : PrintJob) : Outcome PrintJob := do
  let s ← getStr sSides j.printerAttrs j.jobAttrs []
  return { j with params := { j.params with duplexMode := duplexOf s j.params.duplexMode } }

/-- ippprintjob.cpp 129-143 -/
def qualityOf (q : Int) : Quality :=
  if q = 3 then .DraftQuality else if q = 4 then .NormalQuality else if q = 5 then .HighQuality else .DefaultQuality

/-- ippprintjob.cpp 129-143 -/
def takeQuality (j : PrintJob) : Outcome PrintJob := do
  let q ← getInt sPrintQuality j.printerAttrs j.jobAttrs 0
  return { j with params := { j.params with quality := qualityOf q } }

/-- ippprintjob.cpp 145-154 -/
def colorModeOf (supported : List Bytes) (m : Bytes) (old : ColorMode) : ColorMode :=
  if Text.contains m (ascii "color") then .sRGB24
  else if Text.contains m (ascii "monochrome") ∨ ¬ supported.contains (ascii "color") then .Gray8
  else old

/-- ippprintjob.cpp 145-154 -/
def takeColorMode (j : PrintJob) : Outcome PrintJob := do
  let supported ← supportedStrs sColorMode j.printerAttrs
  let m ← getStr sColorMode j.printerAttrs j.jobAttrs []
  return { j with params := { j.params with colorMode := colorModeOf supported m j.params.colorMode } }

/-- lib/mediaposition.h 4-54: the names, in the order of the enumeration at printparameters.h 56-108. -/
def mediaPositions : List Bytes :=
  [ascii "auto", ascii "main", ascii "alternate", ascii "large-capacity", ascii "manual", ascii "envelope", ascii "disc",
   ascii "photo", ascii "hagaki", ascii "main-roll", ascii "alternate-roll", ascii "top", ascii "middle", ascii "bottom",
   ascii "side", ascii "left", ascii "right", ascii "center", ascii "rear", ascii "by-pass-tray"] ++
  (List.range 20).map (fun i => ascii "tray-" ++ dec (i + 1)) ++ (List.range 10).map (fun i => ascii "roll-" ++ dec (i + 1))

/-- `MediaPositionMap.at(name)` -/
def mediaPosition (name : Bytes) : Outcome Nat :=
  match mediaPositions.findIdx? (· = name) with
  | some i => .ok i
  | none => .throws .outOfRange

/-- ippprintjob.cpp 157-160 -/
def newPosition (j : PrintJob) (isSet : Bool) : Outcome Nat :=
  if isSet then do
    let s ← getStr sMediaSource j.printerAttrs j.jobAttrs []
    mediaPosition s
  else .ok j.params.mediaPosition

/-- ippprintjob.cpp 156-161 -/
def takeMedia (j : PrintJob) : Outcome PrintJob := do
  let isSet ← sMediaSource.isSet j.jobAttrs
  let p ← newPosition j isSet
  let t ← getStr sMediaType j.printerAttrs j.jobAttrs []
  return { j with params := { j.params with mediaPosition := p, mediaType := t } }

/-- ippprintjob.cpp 48-161: what follows the last check -/
def finalizeSteps (input : Bytes) (pages : Int) (j : PrintJob) : Outcome PrintJob := do
  let j ← takeMargins j
  let j ← addMediaSize j
  let j ← takeResolution (setFormat input j)
  let j ← takeRanges input j
  let j ← adjustRaster pages j
  let j ← takeSides j
  let j ← takeQuality j
  let j ← takeColorMode j
  takeMedia j

/-- The errors that finalize returns. -/
inductive JobError where
  /-- "Failed to determine traget format", line 27 -/
  | noTarget
  /-- "Invalid paper size name", line 45 -/
  | badPaper
  deriving DecidableEq, Repr

/-- ippprintjob.cpp 43-163 -/
def finalizePaper (input : Bytes) (pages : Int) (j : PrintJob) : Outcome (Option JobError × PrintJob) := do
  let (ok, j) ← setPaper j
  if ok then do
    let j ← finalizeSteps input pages j
    return (none, j)
  else return (some .badPaper, j)

/-- `IppPrintJob::finalize`, ippprintjob.cpp 12-164: the returned error, and the job afterwards. When an exception is thrown the job
is not returned (`runJob` works on a copy). -/
def finalize (pl : Pipelines) (input : Bytes) (pages : Int) (j : PrintJob) : Outcome (Option JobError × PrintJob) := do
  let target ← determineTargetFormat pl input j
  let j ← setDocumentFormat { j with targetFormat := target }
  if j.targetFormat = [] ∨ j.targetFormat = octetStream then return (some .noTarget, j)
  else do
    let j ← setCompression j
    finalizePaper input pages j

end Verif.Job
