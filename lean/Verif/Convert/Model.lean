import Verif.Client.Model
import Verif.Pdf.Model
import Verif.Raster.ToolChain

/-!
# Model of the converters' command lines: utils/pdf2printable_main.cpp and utils/ppm2pwg_main.cpp

poppler and cairo, the input files and the room for the output are parameters. Not modelled here: the texts of the help and of error messages (see Says.lean); not at all: debug
output, an output that is the input at the same time (for which see Files.lean), and what remains in the output stream's buffer when an exception ends the program.
-/

namespace Verif.Convert

open Tools Client Raster Pdf

/-- `SwitchArg<size_t>`, argget.h 154 -/
def sizeOpt (names : List Bytes) : Opt :=
  { names, takes := some (fun s => (stoulSigned s).map (fun n => .num n)), typeHint := ascii " <int>", errorHint := [] }

/-- `MEDIA_POSITION_MAP`, mediaposition.h 4-54: the names of the positions 0 to 49 (printparameters.h 56-108). -/
def positionNames : List Bytes :=
  [ascii "auto", ascii "main", ascii "alternate", ascii "large-capacity", ascii "manual",
   ascii "envelope", ascii "disc", ascii "photo", ascii "hagaki", ascii "main-roll",
   ascii "alternate-roll", ascii "top", ascii "middle", ascii "bottom", ascii "side",
   ascii "left", ascii "right", ascii "center", ascii "rear", ascii "by-pass-tray",
   ascii "tray-1", ascii "tray-2", ascii "tray-3", ascii "tray-4", ascii "tray-5",
   ascii "tray-6", ascii "tray-7", ascii "tray-8", ascii "tray-9", ascii "tray-10",
   ascii "tray-11", ascii "tray-12", ascii "tray-13", ascii "tray-14", ascii "tray-15",
   ascii "tray-16", ascii "tray-17", ascii "tray-18", ascii "tray-19", ascii "tray-20",
   ascii "roll-1", ascii "roll-2", ascii "roll-3", ascii "roll-4", ascii "roll-5",
   ascii "roll-6", ascii "roll-7", ascii "roll-8", ascii "roll-9", ascii "roll-10"]

/-- The files: what can be read, and how much can be written (none: everything; nothing at all when the file can not be made). -/
structure Disk where
  read : Bytes → Option Bytes
  room : Bytes → Option Nat

/-- What gets into an `std::ofstream` (binfile.h 60-71): after the first failure everything is ignored. -/
def Disk.kept (d : Disk) (name data : Bytes) : Bytes :=
  match d.room name with
  | none => data
  | some n => data.take n

/-- How a tool ends: its exit code, or an exception that nobody catches; and the output that was made, by its name ("-": standard output). -/
structure Done where
  out : Outcome Nat
  file : Option (Bytes × Bytes) := none
  deriving DecidableEq, Repr

/-- `uint32_t` of an `int`, printparameters.h 115-116 and ppm2pwg.h 11 -/
def uint32Of (i : Int) : Nat := (i % 4294967296).toNat

/-- pdf2printable_main.cpp 152-168, ppm2pwg_main.cpp 115-131: the resolution of one axis, from the option for it and the one for both. -/
def resolution (own both : Option Val) : Nat :=
  match numOf own, numOf both with
  | some i, _ => uint32Of i
  | none, some i => uint32Of i
  | none, none => 300

/-- pdf2printable_main.cpp 170-177, ppm2pwg_main.cpp 133-140 -/
def duplexMode (duplex tumble : Option Val) : DuplexMode :=
  if tumble.isSome then .TwoSidedShortEdge else if duplex.isSome then .TwoSidedLongEdge else .OneSided

/-- The option for the back sides, pdf2printable_main.cpp 59-64, ppm2pwg_main.cpp 61-66 -/
def backOpt : Opt := enumOpt [ascii "-b", ascii "--back-xform"] [ascii "rotate", ascii "flip", ascii "manual-tumble"]

/-- Its values -/
def backXform (v : Option Val) : BackXform := (choiceOf [.Rotated, .Flipped, .ManualTumble] v).getD .Normal

/-- The option for the quality, pdf2printable_main.cpp 75-80, ppm2pwg_main.cpp 67-72 -/
def qualityOpt : Opt := enumOpt [ascii "-q", ascii "--quality"] [ascii "draft", ascii "normal", ascii "high"]

/-- Its values -/
def quality (v : Option Val) : Quality := (choiceOf [.DraftQuality, .NormalQuality, .HighQuality] v).getD .DefaultQuality

/-- The option for the media position, pdf2printable_main.cpp 82-84, ppm2pwg_main.cpp 73-75 -/
def positionOpt : Opt := enumOpt [ascii "-mp", ascii "--media-pos"] positionNames

/-- Its values -/
def position (v : Option Val) : Nat := (choiceOf (List.range 50) v).getD 0

/-! ## pdf2printable -/

/-- pdf2printable_main.cpp 36-85, in the order of 90-95 -/
def pdfOpts : List Opt :=
  [helpOpt, verboseOpt,
   enumOpt [ascii "-f", ascii "--format"] [ascii "pdf", ascii "postscript", ascii "ps", ascii "pwg", ascii "urf"],
   textOpt [ascii "-p", ascii "--pages"], sizeOpt [ascii "--copies"], textOpt [ascii "--paper-size"],
   intOpt [ascii "-r", ascii "--resolution"], intOpt [ascii "-rx", ascii "--resolution-x"], intOpt [ascii "-ry", ascii "--resolution-y"],
   boolOpt [ascii "-d", ascii "--duplex"], boolOpt [ascii "-t", ascii "--tumble"], backOpt,
   enumOpt [ascii "-c", ascii "--color-mode"] [ascii "srgb24", ascii "cmyk32", ascii "gray8", ascii "black8", ascii "gray1", ascii "black1"],
   qualityOpt, boolOpt [ascii "-aa", ascii "--antialias"], positionOpt, textOpt [ascii "-mt", ascii "--media-type"]]

/-- pdf2printable_main.cpp 87-88 -/
def pdfPos : List Pos := [⟨ascii "PDF-file", false⟩, ⟨ascii "out-file", false⟩]

/-- pdf2printable_main.cpp 114-132 -/
def formatFor (outFile : Bytes) : Format :=
  if Text.endsWith outFile (ascii ".ps") then .Postscript
  else if Text.endsWith outFile (ascii ".pwg") then .PWG
  else if Text.endsWith outFile (ascii ".urf") then .URF
  else .PDF

/-- The parameters with the sizes that the getters give (printparameters.cpp 16-44, 81-109; ppm2pwg.cpp rounds the points). -/
def withPaper (paper : Paper) (p : Params) : Params :=
  { p with
    paperSizeName := paper.name
    widthPx := paperWInPixels paper p
    heightPx := paperHInPixels paper p
    widthPt := (roundAway (paperWInPoints paper p)).toNat
    heightPt := (roundAway (paperHInPoints paper p)).toNat }

/-- What the options set directly or by simple means, pdf2printable_main.cpp 36-85, 114-132, 152-177. -/
def pdfBasic (v : Vals) (outFile : Bytes) : Params :=
  { format := (choiceOf [.PDF, .Postscript, .Postscript, .PWG, .URF] (v 2)).getD (formatFor outFile)
    copies := ((numOf (v 4)).getD 1).toNat
    hwResW := resolution (v 7) (v 6)
    hwResH := resolution (v 8) (v 6)
    duplexMode := duplexMode (v 9) (v 10)
    backXformMode := backXform (v 11)
    colorMode := (choiceOf [.sRGB24, .CMYK32, .Gray8, .Black8, .Gray1, .Black1] (v 12)).getD .sRGB24
    quality := quality (v 13)
    mediaPosition := position (v 15)
    mediaType := (textOf (v 16)).getD [] }

/-- pdf2printable_main.cpp 134-141 -/
def pagesChosen (v : Option Val) (p : Params) : Outcome (Params × Bool) :=
  match textOf v with
  | none => .ok (p, true)
  | some s => p.setPageRange s

/-- pdf2printable_main.cpp 143-150 -/
def paperChosen (v : Option Val) : PaperResult :=
  match textOf v with
  | none => ⟨.ok true, {}⟩
  | some s => setPaperSize {} s

/-- pdf2printable_main.cpp 114-191: the parameters; none: an error message and `return 1`. The parts that can not fail are done first. -/
def pdfParams (v : Vals) (outFile : Bytes) : Outcome (Option (Paper × Params)) :=
  match pagesChosen (v 3) (pdfBasic v outFile) with
  | .ok (_, false) => .ok none
  | .ok (p, true) =>
    match (paperChosen (v 5)).ret with
    | .ok false => .ok none
    | .ok true =>
      if p.format = .URF ∧ (p.bitsPerColor = 1 ∨ p.isBlack = true) then .ok none
      else if p.format = .URF ∧ (v 16).isSome ∧ isUrfMediaType p.mediaType = false then .ok none
      else .ok (some ((paperChosen (v 5)).paper, withPaper (paperChosen (v 5)).paper p))
    | .throws e => .throws e
    | .ub => .ub
    | .hang => .hang
  | .throws e => .throws e
  | .ub => .ub
  | .hang => .hang

/-- The exit code for what `pdf_to_printable` returns, pdf2printable_main.cpp 209-214 -/
def codeFor (r : Outcome (Option Failure)) : Outcome Nat := do
  let e ← r
  return if e = none then 0 else 1

/-- `main`, pdf2printable_main.cpp 21-215. `lib file antiAlias` is the document and how it is drawn. The callback in 195-199 always returns true:
`exceptions()` is the mask of the states that throw, which is never set. -/
def pdfMain (lum : Luminosity) (lib : Bytes → Bool → Library) (d : Disk) (args : List Bytes) : Done :=
  let r := getArgs pdfOpts pdfPos args
  if (r.vals 0).isSome then { out := .ok 0 }
  else if r.success then
    let outFile := r.positional.getD 1 []
    match pdfParams r.vals outFile with
    | .ok none => { out := .ok 1 }
    | .ok (some (paper, p)) =>
      let run := pdfToPrintable lum (lib (r.positional.getD 0 []) (r.vals 14).isSome) (fun _ => true) paper p
      { out := codeFor run.result, file := some (outFile, d.kept outFile (blocks run.events).flatten) }
    | .throws e => { out := .throws e }
    | .ub => { out := .ub }
    | .hang => { out := .hang }
  else { out := .ok 1 }

/-! ## ppm2pwg -/

/-- ppm2pwg_main.cpp 50-76, in the order of 81-84 -/
def ppmOpts : List Opt :=
  [helpOpt, verboseOpt, enumOpt [ascii "-f", ascii "--format"] [ascii "pwg", ascii "urf"], intOpt [ascii "--num-pages"],
   textOpt [ascii "--paper-size"],
   intOpt [ascii "-r", ascii "--resolution"], intOpt [ascii "-rx", ascii "--resolution-x"], intOpt [ascii "-ry", ascii "--resolution-y"],
   boolOpt [ascii "-d", ascii "--duplex"], boolOpt [ascii "-t", ascii "--tumble"], backOpt, qualityOpt, positionOpt,
   textOpt [ascii "-mt", ascii "--media-type"]]

/-- ppm2pwg_main.cpp 78-79 -/
def ppmPos : List Pos := [⟨ascii "in-file", false⟩, ⟨ascii "out-file", false⟩]

/-- ppm2pwg_main.cpp 36-38, 50-76, 104-107, 115-140 -/
def ppmParams (v : Vals) (outFile : Bytes) : Params :=
  { format := (choiceOf [.PWG, .URF] (v 2)).getD (if Text.endsWith outFile (ascii ".urf") then .URF else .PWG)
    paperSizeName := (textOf (v 4)).getD (ascii "iso_a4_210x297mm")
    hwResW := resolution (v 6) (v 5)
    hwResH := resolution (v 7) (v 5)
    duplexMode := duplexMode (v 8) (v 9)
    backXformMode := backXform (v 10)
    quality := quality (v 11)
    mediaPosition := position (v 12)
    mediaType := (textOf (v 13)).getD [] }

/-- The size in points for a size in pixels (printparameters.cpp 81-109 with `Pixels`, rounded in ppm2pwg.cpp). A resolution of 0 is not covered: the
code divides by it. -/
def pixelPoints (px res : Nat) : Nat := (roundAway (sizeInPoints .Pixels px res)).toNat

/-- ppm2pwg_main.cpp 169-253: the pages that were read are encoded and written, up to the first exception; then comes the end of the reading. Reading ahead
of the encoding makes no difference. -/
def encodeUntil : List (Params × Nat × Bytes) → PnmEnd → Bytes × Outcome Nat
  | [], .done => ([], .ok 0)
  | [], .refused => ([], .ok 1)
  | [], .threw e => ([], .throws e)
  | x :: xs, e =>
    match bmpToPwg x.1 x.2.1 x.2.2 with
    | .ok enc => (enc ++ (encodeUntil xs e).1, (encodeUntil xs e).2)
    | .throws e => ([], .throws e)
    | .ub => ([], .ub)
    | .hang => ([], .hang)

/-- `main`, ppm2pwg_main.cpp 34-254. `loop` is the loop over the pictures (169-253): what it writes, and the exit code. -/
def ppmWith (loop : Params → Bytes → Bytes × Outcome Nat) (d : Disk) (args : List Bytes) : Done :=
  let r := getArgs ppmOpts ppmPos args
  if (r.vals 0).isSome then { out := .ok 0 }
  else if r.success then
    let outFile := r.positional.getD 1 []
    let p := ppmParams r.vals outFile
    if p.format = .URF ∧ (r.vals 13).isSome ∧ isUrfMediaType p.mediaType = false then { out := .ok 1 }
    else
      match d.read (r.positional.getD 0 []) with
      | none => { out := .ok 1 }
      | some s =>
        let hdr := if p.format = .URF then urfFileHdr (uint32Of ((numOf (r.vals 3)).getD 0)) else pwgFileHdr
        let e := loop p s
        { out := e.2, file := some (outFile, d.kept outFile (hdr ++ e.1)) }
  else { out := .ok 1 }

/-- `main` with sizes as natural numbers (Convert/Machine.lean has them as the code computes them) -/
def ppmMain (d : Disk) (args : List Bytes) : Done :=
  ppmWith (fun p s => encodeUntil (readPnm pixelPoints p 1 s).1 (readPnm pixelPoints p 1 s).2) d args

end Verif.Convert
