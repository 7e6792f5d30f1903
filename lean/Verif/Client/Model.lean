import Verif.Client.Info
import Verif.Params.Pages
import Verif.Tools.Mime

/-!
# Model of ippclient (utils/ippclient.cpp)

The network, the files, the saved settings and the number of pages of a PDF are parameters (`World`). Not modelled here: the
texts of error messages and of the help (see Show.lean and Says.lean); not at all: debug output.
-/

namespace Verif.Client

open Ipp Job Printer Tools

/-! ## The command line -/

/-- `std::stoul` (64-bit `unsigned long`): skips white space, takes an optional sign and the digits, ignores what follows; a negative number is
taken modulo 2^64. -/
def stoulSigned (s : Bytes) : Option Nat :=
  let t := s.dropWhile isSpace
  let u := if t.head? = some 45 ∨ t.head? = some 43 then t.drop 1 else t
  let ds := u.takeWhile isDigit
  if ds = [] then none
  else if 18446744073709551616 ≤ digitsVal ds then none
  else some (if t.head? = some 45 then (18446744073709551616 - digitsVal ds) % 18446744073709551616 else digitsVal ds)

/-- `SwitchArg<uint32_t>`, argget.h 153: the result of `std::stoul` is cut to 32 bits. -/
def uintOpt (names : List Bytes) : Opt :=
  { names, takes := some (fun s => (stoulSigned s).map (fun n => .num ((n % 4294967296 : Nat) : Int))), typeHint := ascii " <int>", errorHint := [] }

/-- `EnumSwitchArg`, argget.h 158-210, with the values' numbers -/
def enumOpt (names : List Bytes) (values : List Bytes) : Opt :=
  { names, takes := some (fun s => (values.idxOf? s).map .choice), typeHint := ascii " <choice>", errorHint := [] }

/-- ippclient.cpp 199 -/ def helpOpt : Opt := boolOpt [ascii "-h", ascii "--help"]
/-- ippclient.cpp 200 -/ def verboseOpt : Opt := boolOpt [ascii "-v", ascii "--verbose"]
/-- ippclient.cpp 242 -/ def idOpt : Opt := intOpt [ascii "--id"]
/-- ippclient.cpp 244 -/ def addrArg : Pos := ⟨ascii "printer address", false⟩
/-- ippclient.cpp 245 -/ def attrsArg : Pos := ⟨ascii "name=value[,name=value]", false⟩
/-- ippclient.cpp 246 -/ def pdfArg : Pos := ⟨ascii "input file", false⟩

/-- The options of `print`, ippclient.cpp 199-240 in the order of 260-267. -/
def printOpts : List Opt :=
  [helpOpt, verboseOpt, boolOpt [ascii "-f", ascii "--force"], boolOpt [ascii "--one-stage"],
   textOpt [ascii "-p", ascii "--pages"], intOpt [ascii "--copies"], enumOpt [ascii "--collated-copies"] [ascii "yes", ascii "no"],
   textOpt [ascii "--paper-size"],
   uintOpt [ascii "-r", ascii "--resolution"], uintOpt [ascii "-rx", ascii "--resolution-x"], uintOpt [ascii "-ry", ascii "--resolution-y"],
   textOpt [ascii "-s", ascii "--sides"], textOpt [ascii "-c", ascii "--color-mode"],
   enumOpt [ascii "-q", ascii "--quality"] [ascii "draft", ascii "normal", ascii "high"], textOpt [ascii "--scaling"],
   textOpt [ascii "--format"], textOpt [ascii "--mime-type"],
   textOpt [ascii "--media-type"], textOpt [ascii "--media-source"], textOpt [ascii "--output-bin"], intOpt [ascii "--finishings"],
   intOpt [ascii "-m", ascii "--margin"], intOpt [ascii "-tm", ascii "--top-margin"], intOpt [ascii "-bm", ascii "--bottom-margin"],
   intOpt [ascii "-lm", ascii "--left-margin"], intOpt [ascii "-rm", ascii "--right-margin"],
   boolOpt [ascii "-aa", ascii "--antialias"], boolOpt [ascii "--print-job-id"], boolOpt [ascii "--save"]]

/-- The sub-commands, ippclient.cpp 248-268. -/
def commands : List (Bytes × List Opt × List Pos) :=
  [(ascii "info", [helpOpt, verboseOpt], [addrArg]), (ascii "identify", [helpOpt, verboseOpt], [addrArg]),
   (ascii "get-attrs", [helpOpt, verboseOpt], [addrArg]), (ascii "set-attrs", [helpOpt, verboseOpt], [addrArg, attrsArg]),
   (ascii "get-jobs", [helpOpt, verboseOpt], [addrArg]), (ascii "cancel-job", [helpOpt, verboseOpt, idOpt], [addrArg]),
   (ascii "print", printOpts, [addrArg, pdfArg])]

/-- The variables of ippclient.cpp 160-197 that `print` uses; none when the option's `isSet()` is false. -/
structure Options where
  force : Bool := false
  oneStage : Bool := false
  pages : Option Bytes := none
  copies : Option Int := none
  collatedCopies : Option Bytes := none
  paperSize : Option Bytes := none
  hwRes : Option UInt32 := none
  hwResX : Option UInt32 := none
  hwResY : Option UInt32 := none
  sides : Option Bytes := none
  colorMode : Option Bytes := none
  quality : Option Int := none
  scaling : Option Bytes := none
  format : Option Bytes := none
  mimeType : Option Bytes := none
  mediaType : Option Bytes := none
  mediaSource : Option Bytes := none
  outputBin : Option Bytes := none
  finishing : Option Int := none
  margin : Option Int := none
  topMargin : Option Int := none
  bottomMargin : Option Int := none
  leftMargin : Option Int := none
  rightMargin : Option Int := none
  printJobId : Bool := false
  save : Bool := false
  deriving DecidableEq, Repr

/-- The value of a text option. -/
def textOf : Option Val → Option Bytes
  | some (.text s) => some s
  | _ => none

/-- The value of a number option. -/
def numOf : Option Val → Option Int
  | some (.num i) => some i
  | _ => none

/-- The value of an unsigned number option. -/
def wordOf (v : Option Val) : Option UInt32 := (numOf v).map (fun i => UInt32.ofNat i.toNat)

/-- The value of an option with choices, which stand for these values. -/
def choiceOf {α : Type} (values : List α) : Option Val → Option α
  | some (.choice k) => values[k]?
  | _ => none

/-- The variables that the options refer to, ippclient.cpp 199-240; the positions are those of `printOpts`. -/
def Options.of (v : Vals) : Options :=
  { force := (v 2).isSome, oneStage := (v 3).isSome, pages := textOf (v 4), copies := numOf (v 5),
    collatedCopies := choiceOf [ascii "separate-documents-collated-copies", ascii "separate-documents-uncollated-copies"] (v 6),
    paperSize := textOf (v 7), hwRes := wordOf (v 8), hwResX := wordOf (v 9), hwResY := wordOf (v 10),
    sides := textOf (v 11), colorMode := textOf (v 12), quality := choiceOf [3, 4, 5] (v 13), scaling := textOf (v 14), format := textOf (v 15),
    mimeType := textOf (v 16), mediaType := textOf (v 17), mediaSource := textOf (v 18), outputBin := textOf (v 19), finishing := numOf (v 20),
    margin := numOf (v 21), topMargin := numOf (v 22), bottomMargin := numOf (v 23), leftMargin := numOf (v 24), rightMargin := numOf (v 25),
    printJobId := (v 27).isSome, save := (v 28).isSome }

/-! ## Printing -/

/-- A part of what `print` does to the job; none: `exit(1)` or `return 1`. -/
abbrev Step := PrintJob → Outcome (Option PrintJob)

/-- One part after the other. -/
def runSteps : List Step → Step
  | [], j => .ok (some j)
  | s :: r, j => do
    match ← s j with
    | some j' => runSteps r j'
    | none => return none

/-- `setting.set(value)` for a setting in `jobAttrs`. -/
def setJob (s : Setting) (v : Value) (j : PrintJob) : Outcome PrintJob := do
  let a ← s.set v j.jobAttrs
  return { j with jobAttrs := a }

/-- `setting.set(value)` for a setting in `opAttrs`. -/
def setOp (s : Setting) (v : Value) (j : PrintJob) : Outcome PrintJob := do
  let a ← s.set v j.opAttrs
  return { j with opAttrs := a }

/-- `set_or_fail`, ippclient.cpp 126-156, with what `isSupportedValue` and `set` do. The texts for the error messages are left out. -/
def setOrFail (supports : Attrs → Value → Outcome Bool) (set : Value → PrintJob → Outcome PrintJob) (given : Option Value) (force : Bool) : Step := fun j =>
  match given with
  | none => .ok (some j)
  | some v => do
    let b ← supports j.printerAttrs v
    if b || force then do
      let j' ← set v j
      return some j'
    else return none

/-- `set_or_fail` for a setting with choices in `jobAttrs`. -/
def choose (s : Setting) (given : Option Value) (force : Bool) : Step := setOrFail s.choiceSupports (setJob s) given force

/-- `pos_clamp<int32_t>`, ippclient.cpp 40-44 -/
def clamp (n : Nat) : Int := if n ≤ 2147483647 then n else 2147483647

/-- ippclient.cpp 409-423 -/
def pagesStep (o : Options) : Step := fun j =>
  match o.pages with
  | none => .ok (some j)
  | some text => do
    let l ← parsePageRange text
    if l = [] then return none
    else do
      let j' ← setJob sPageRanges (.set (l.map (fun r => .range (clamp r.1) (clamp r.2)))) j
      return some j'

/-- ippclient.cpp 425; `force || printer.supportsPrinterRaster()` -/
def copiesStep (p : Printer) (o : Options) : Step := fun j => do
  let f ← if o.force then pure true else supportsPrinterRaster p
  setOrFail (fun pa v => sCopies.integerSupports pa (intOf v)) (setJob sCopies) (o.copies.map .int) f j

/-- ippclient.cpp 429-433 -/
def bothStep (o : Options) : Step := fun j => if o.hwResX.isSome ≠ o.hwResY.isSome then .ok none else .ok (some j)

/-- ippclient.cpp 435-436: the list of resolutions for the message is made in any case. -/
def resolutionListStep : Step := fun j => do
  let _ ← sResolution.choices j.printerAttrs
  return some j

/-- ippclient.cpp 437-443: the resolution, when both of its parts are set -/
def bothOf : Option UInt32 → Option UInt32 → Option Value
  | some x, some y => some (.res x y 3)
  | _, _ => none

/-- `getAlias` for each of the values, ippclient.cpp 448-451 (argget.h 187-190): `std::out_of_range` for other qualities. -/
def aliases : List Value → Outcome Unit
  | [] => .ok ()
  | .int q :: r => if q = 3 ∨ q = 4 ∨ q = 5 then aliases r else .throws .outOfRange
  | _ :: r => aliases r

/-- ippclient.cpp 447-452: the list of qualities for the message is made in any case. -/
def qualityListStep : Step := fun j => do
  let l ← sPrintQuality.choices j.printerAttrs
  let _ ← aliases l
  return some j

/-- ippclient.cpp 461-469 -/
def marginStep (o : Options) : Step := fun j =>
  if o.margin.isSome ∧ o.force = false ∧ (sTopMargin.isSupported j.printerAttrs = false ∨ sBottomMargin.isSupported j.printerAttrs = false ∨
      sLeftMargin.isSupported j.printerAttrs = false ∨ sRightMargin.isSupported j.printerAttrs = false) then .ok none
  else .ok (some j)

/-- ippclient.cpp 409-487 -/
def printSteps (p : Printer) (o : Options) : List Step :=
  [pagesStep o,
   copiesStep p o,
   choose sMultipleDocumentHandling (o.collatedCopies.map .str) o.force,
   choose sMedia (o.paperSize.map .str) o.force,
   bothStep o,
   resolutionListStep,
   choose sResolution (bothOf o.hwRes o.hwRes) o.force,
   choose sResolution (bothOf o.hwResX o.hwResY) o.force,
   choose sSides (o.sides.map .str) o.force,
   choose sColorMode (o.colorMode.map .str) o.force,
   qualityListStep,
   choose sPrintQuality (o.quality.map .int) o.force,
   choose sScaling (o.scaling.map .str) o.force,
   setOrFail sDocumentFormat.choiceSupports (setOp sDocumentFormat) (o.format.map .str) o.force,
   choose sMediaType (o.mediaType.map .str) o.force,
   choose sMediaSource (o.mediaSource.map .str) o.force,
   choose sOutputBin (o.outputBin.map .str) o.force,
   choose sFinishings (o.finishing.map .int) o.force,
   marginStep o,
   choose sTopMargin (o.margin.map .int) o.force,
   choose sBottomMargin (o.margin.map .int) o.force,
   choose sLeftMargin (o.margin.map .int) o.force,
   choose sRightMargin (o.margin.map .int) o.force,
   choose sTopMargin (o.topMargin.map .int) o.force,
   choose sBottomMargin (o.bottomMargin.map .int) o.force,
   choose sLeftMargin (o.leftMargin.map .int) o.force,
   choose sRightMargin (o.rightMargin.map .int) o.force]

/-- What the outside is and does. -/
structure World where
  env : Env
  files : Files
  store : Store
  user : Bytes
  /-- the reply to the request for the attributes -/
  attrsReply : Except Bytes Bytes
  /-- the reply to the request of another sub-command than `print` -/
  reply : Except Bytes Bytes
  /-- `poppler_document_new_from_file` and `poppler_document_get_n_pages` -/
  pdfPages : Bytes → Option Int

/-- The names of minimime.cpp 10-20 -/
def mimeName : Mime → Bytes
  | .none => []
  | .octetStream => octetStream
  | .pdf => pdf
  | .postscript => postscript
  | .pwg => pwg
  | .urf => urf
  | .png => ascii "image/png"
  | .gif => ascii "image/gif"
  | .jpeg => ascii "image/jpeg"
  | .tiff => ascii "image/tiff"

/-- ippclient.cpp 396-407: the type of the input; none: `return 1`. -/
def inputType (w : World) (o : Options) (inFile : Bytes) : Option Bytes :=
  match o.mimeType with
  | some t => some t
  | none =>
    let t := if inFile ≠ ascii "-" then mimeName (getMimeType ((w.files.read inFile).getD [])) else []
    if t = [] ∨ t = octetStream then none else some t

/-- ippclient.cpp 381-384 -/
def restored (w : World) (o : Options) (j : PrintJob) : Outcome PrintJob :=
  if o.save then .ok j
  else do
    let (op, job) ← restoreSettings j.printerAttrs j.opAttrs j.jobAttrs w.store
    return { j with opAttrs := op, jobAttrs := job }

/-- ippclient.cpp 386-389; lines 391-394 (anti-aliasing, which only the renderer looks at) are left out -/
def flags (o : Options) (j : PrintJob) : PrintJob :=
  { j with oneStage := if o.oneStage then true else j.oneStage }

/-- ippclient.cpp 380-487: the job and the type of the input; none: the program ends with 1. -/
def prepare (w : World) (p : Printer) (o : Options) (inFile : Bytes) : Outcome (Option (PrintJob × Bytes)) := do
  let j ← createJob p
  let j ← restored w o j
  match inputType w o inFile with
  | none => return none
  | some t =>
    match ← runSteps (printSteps p o) (flags o j) with
    | none => return none
    | some j' => return some (j', t)

/-- ippclient.cpp 489-505: the number of pages (0: not known); none: `return 1`. -/
def countPages (w : World) (t inFile : Bytes) : Option Int := if t = pdf then w.pdfPages inFile else some 0

/-- ippclient.cpp 507-514: whether to go on, and the saved settings. -/
def saved (w : World) (o : Options) (j : PrintJob) : Outcome (Bool × Store) :=
  if o.save then saveSettings j.printerAttrs j.opAttrs j.jobAttrs w.store else .ok (true, w.store)

/-- `std::filesystem::path(inFile).filename()` -/
def fileName (inFile : Bytes) : Bytes := (inFile.reverse.takeWhile (fun c => decide (c ≠ 47))).reverse

/-- What is shown. -/
inductive Shown where
  | nothing
  | info (text : Bytes)
  | attrs (j : Json)
  | jobs (l : List JobInfo)

/-- How the program ends: its exit code, the saved settings and what it has shown. -/
structure End where
  code : Nat
  store : Store
  shown : Shown := .nothing

/-- `return 1` -/
def failed (w : World) : End := { code := 1, store := w.store }

/-- `return 0` -/
def fine (w : World) : End := { code := 0, store := w.store }

/-- `if(error) … return 1;` and then `return 0` -/
def endOf {α : Type} (w : World) : Option α → End
  | some _ => failed w
  | none => fine w

/-- The number of the request after that for the attributes. -/
def nextId (w : World) (p : Printer) : Nat := if Text.startsWith p.addr (ascii "file://") then w.env.reqId else nextReqId w.env.reqId

/-- ippclient.cpp 507-528: what follows the number of pages -/
def submit (w : World) (p : Printer) (o : Options) (inFile : Bytes) (j : PrintJob) (t : Bytes) (pages : Int) : Act End := do
  let (goOn, store) ← Act.lift (saved w o j)
  if goOn then do
    let e ← runJob { w.env with reqId := nextId w p, showJobId := o.printJobId } p j t (fileName inFile) pages
    return { endOf w e with store := store }
  else return failed w

/-- ippclient.cpp 489-528 -/
def launch (w : World) (p : Printer) (o : Options) (inFile : Bytes) : Option (PrintJob × Bytes) → Act End
  | none => pure (failed w)
  | some (j, t) =>
    match countPages w t inFile with
    | none => pure (failed w)
    | some pages => submit w p o inFile j t pages

/-- `print`, ippclient.cpp 378-529 -/
def printCommand (w : World) (p : Printer) (o : Options) (inFile : Bytes) : Act End := do
  let r ← Act.lift (prepare w p o inFile)
  launch w p o inFile r

/-! ## The other sub-commands -/

/-- `std::regex_match` with `^([^=]*)=([^=]*)$`, ippclient.cpp 333-338 -/
def keyValue (s : Bytes) : Option (Bytes × Bytes) :=
  let k := s.takeWhile (fun c => decide (c ≠ 61))
  match s.drop k.length with
  | [] => none
  | _ :: v => if 61 ∈ v then none else some (k, v)

/-- The loop at ippclient.cpp 334-345; none: `return 1`. -/
def keyValues : List Bytes → Option (List (Bytes × Bytes))
  | [] => some []
  | s :: r => do
    let kv ← keyValue s
    let kvs ← keyValues r
    return kv :: kvs

/-- `set-attrs`, ippclient.cpp 329-352 -/
def setAttrsCommand (w : World) (p : Printer) (text : Bytes) : Act End :=
  match keyValues (Text.splitString [44] text) with
  | none => pure (failed w)
  | some kvs => do
    let e ← setAttributes (nextId w p) p kvs w.reply
    return endOf w e

/-- `get-jobs`, ippclient.cpp 353-363 -/
def getJobsCommand (w : World) (p : Printer) : Act End := do
  let r ← getJobs (nextId w p) p w.reply
  match r with
  | (some _, _) => return failed w
  | (none, l) => return { fine w with shown := .jobs l }

/-- `cancel-job`, ippclient.cpp 364-377 -/
def cancelCommand (w : World) (p : Printer) : Option Int → Act End
  | none => pure (failed w)
  | some id => do
    let e ← cancelJob (nextId w p) p id w.reply
    return endOf w e

/-- `identify`, ippclient.cpp 316-324 -/
def identifyCommand (w : World) (p : Printer) : Act End := do
  let e ← identify (nextId w p) p w.reply
  return endOf w e

/-- `info`, ippclient.cpp 295-315 -/
def infoCommand (w : World) (p : Printer) : Act End := do
  let text ← Act.lift (info w.env.pipelines p)
  return { fine w with shown := .info text }

/-- ippclient.cpp 295-530: what the sub-command does with the printer. -/
def command (w : World) (p : Printer) (sub : Bytes) (r : Result) : Act End :=
  if sub = ascii "info" then infoCommand w p
  else if sub = ascii "identify" then identifyCommand w p
  else if sub = ascii "get-attrs" then pure { fine w with shown := .attrs (attrsToJson p.attrs) }
  else if sub = ascii "set-attrs" then setAttrsCommand w p (r.positional.getD 1 [])
  else if sub = ascii "get-jobs" then getJobsCommand w p
  else if sub = ascii "cancel-job" then cancelCommand w p (numOf (r.vals 2))
  else if sub = ascii "print" then printCommand w p (Options.of r.vals) (r.positional.getD 1 [])
  else pure (fine w)

/-- ippclient.cpp 287-530: with correct arguments -/
def withPrinter (w : World) (sub : Bytes) (r : Result) : Act End := do
  let (e, p) ← construct w.files w.env.reqId (r.positional.getD 0 []) w.user w.attrsReply
  match e with
  | some _ => return failed w
  | none => command w p sub r

/-- `main`, ippclient.cpp 158-531 -/
def main (w : World) (args : List Bytes) : Act End :=
  match getSubArgs commands args with
  | .inl _ => pure (failed w)
  | .inr (sub, r) =>
    if (r.vals 0).isSome then pure (fine w)
    else if r.success then withPrinter w sub r
    else pure (failed w)

end Verif.Client
