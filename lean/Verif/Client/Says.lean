import Verif.Client.ForeignProps
import Verif.Client.JobIdProps
import Verif.Client.JobText
import Verif.Client.ReplyProps
import Verif.Client.ShownProps
import Verif.Convert.Says

/-!
# What ippclient says: utils/ippclient.cpp (C113)

The texts on the standard output and on the standard error, for the same runs as `main`. What the library writes to the standard error by itself is in
LibSays.lean (C117). Not modelled: debug output (`-v`; it goes to the standard error), what other libraries print, and what the run-time system says about an exception
that nobody catches.
-/

set_option linter.unusedVariables false

namespace Verif.Client

open Ipp Job Printer Tools Tools.Spec Printer.Spec Verif.Convert
open Verif.Convert.Spec (AsksHelp)

/-! ## The model -/

/-- What ippclient's texts have from elsewhere -/
structure Talk where
  /-- `argv[0]` -/
  name : Bytes
  /-- `e.what()` of the exception that an error was made of -/
  what : Bytes
  /-- `error->message`, ippclient.cpp 500 -/
  opening : Bytes
  /-- `std::filesystem::absolute`, ippclient.cpp 494 -/
  absolute : Bytes → Bytes
  /-- `Json::dump` -/
  dump : Json → Bytes

/-- ippclient.cpp 199-240 in the order of 260-267 -/
def printTold : List (Opt × Bytes) :=
  [told helpOpt (ascii "Print this help text"),
   told verboseOpt (ascii "Be verbose, print headers and progress"),
   told (boolOpt [ascii "-f", ascii "--force"]) (ascii "Force use of unsupported options"),
   told (boolOpt [ascii "--one-stage"]) (ascii "Force use of one-stage print job"),
   told (textOpt [ascii "-p", ascii "--pages"]) (ascii "What pages to process, e.g.: 1,17-42,69-"),
   told (intOpt [ascii "--copies"]) (ascii "Number of copies to output"),
   told (enumOpt [ascii "--collated-copies"] [ascii "yes", ascii "no"]) (ascii "Request collated copies (yes/no)"),
   told (textOpt [ascii "--paper-size"]) (ascii "Paper size to output, e.g.: iso_a4_210x297mm"),
   told (uintOpt [ascii "-r", ascii "--resolution"]) (ascii "Resolution (in DPI) for rasterization"),
   told (uintOpt [ascii "-rx", ascii "--resolution-x"]) (ascii "Resolution (in DPI) for rasterization, x-axis"),
   told (uintOpt [ascii "-ry", ascii "--resolution-y"]) (ascii "Resolution (in DPI) for rasterization, y-axis"),
   told (textOpt [ascii "-s", ascii "--sides"]) (ascii "Sides (as per IPP)"),
   told (textOpt [ascii "-c", ascii "--color-mode"]) (ascii "Color mode (as per IPP)"),
   told (enumOpt [ascii "-q", ascii "--quality"] [ascii "draft", ascii "normal", ascii "high"]) (ascii "Quality (draft/normal/high)"),
   told (textOpt [ascii "--scaling"]) (ascii "Scaling (as per IPP)"),
   told (textOpt [ascii "--format"]) (ascii "Transfer format"),
   told (textOpt [ascii "--mime-type"]) (ascii "Input file mime-type"),
   told (textOpt [ascii "--media-type"]) (ascii "Media type (as per IPP)"),
   told (textOpt [ascii "--media-source"]) (ascii "Media source (as per IPP)"),
   told (textOpt [ascii "--output-bin"]) (ascii "Output bin (as per IPP)"),
   told (intOpt [ascii "--finishings"]) (ascii "Finishing to apply (as per IPP)"),
   told (intOpt [ascii "-m", ascii "--margin"]) (ascii "Margin (as per IPP)"),
   told (intOpt [ascii "-tm", ascii "--top-margin"]) (ascii "Top margin (as per IPP)"),
   told (intOpt [ascii "-bm", ascii "--bottom-margin"]) (ascii "Bottom margin (as per IPP)"),
   told (intOpt [ascii "-lm", ascii "--left-margin"]) (ascii "Left margin (as per IPP)"),
   told (intOpt [ascii "-rm", ascii "--right-margin"]) (ascii "Right margin (as per IPP)"),
   told (boolOpt [ascii "-aa", ascii "--antialias"]) (ascii "Enable antialiasing in rasterization"),
   told (boolOpt [ascii "--print-job-id"]) (ascii "Print job id on successful submission"),
   told (boolOpt [ascii "--save"]) (ascii "Save options as local defaults for future jobs")]

/-- ippclient.cpp 199-200 -/
def commonTold : List (Opt × Bytes) := printTold.take 2

/-- The sub-commands, ippclient.cpp 248-268, with the texts for their options -/
def commandsTold : List (Bytes × List (Opt × Bytes) × List Pos) :=
  [(ascii "info", commonTold, [addrArg]), (ascii "identify", commonTold, [addrArg]),
   (ascii "get-attrs", commonTold, [addrArg]), (ascii "set-attrs", commonTold, [addrArg, attrsArg]),
   (ascii "get-jobs", commonTold, [addrArg]), (ascii "cancel-job", commonTold ++ [told idOpt (ascii "Id of print job.")], [addrArg]),
   (ascii "print", printTold, [addrArg, pdfArg])]

/-- `args.argHelp(args.subCommand()) << std::endl << HELPTEXT << std::endl`, ippclient.cpp 18 and 273; `HELPTEXT` (line 14) is empty -/
def clientHelpFor (t : Talk) (sub : Bytes) : Bytes := subArgHelp t.name commandsTold sub ++ [10] ++ [] ++ [10]

/-- `docName()` of an option of `print`, by its place in 260-267 -/
def docOf (i : Nat) : Bytes := (printOpts.getD i helpOpt).docName

/-- The text of `set_or_fail` in ippclient.cpp 126-131, if it fails -/
def plainText (i : Nat) (s : Setting) (supported : Bytes) (pa : Attrs) : Bytes :=
  complaint s (docOf i ++ ascii " (ipp: " ++ s.name ++ ascii ")") (ascii "Valid values are: " ++ supported) pa

/-- `resolutionSupported`, ippclient.cpp 436 -/
def resolutionHint (pa : Attrs) : Bytes :=
  ascii "Valid values are: " ++ match sResolution.choices pa with
    | .ok l => resolutionList l
    | _ => []

/-- The hint for the quality, ippclient.cpp 452, which is there if line 450 has not ended the program -/
def qualityText (pa : Attrs) : Bytes :=
  ascii "Valid values are: " ++ match qualityHint pa with
    | .ok h => h
    | _ => []

/-- What is said where one of `printSteps` ends the program, ippclient.cpp 409-487 -/
def stepTexts (t : Talk) (pa : Attrs) : List Bytes :=
  let help := clientHelpFor t (ascii "print")
  let plain := fun i s => plainText i s (supportedStr s pa) pa
  let margin := fun s side => complaint s (docOf 21) (ascii "Valid values for " ++ ascii side ++ ascii " margin are: " ++ supportedStr s pa) pa
  [(printError (ascii "Invalid page range.") help).stderr,
   plain 5 sCopies,
   plain 6 sMultipleDocumentHandling,
   plainText 7 sMedia (preferredStr sMedia (ascii "ready") pa) pa,
   (printError (ascii "Resolution must be specified for both dimensions.") help).stderr,
   [],
   complaint sResolution (docOf 8 ++ ascii " (ipp: " ++ sResolution.name ++ ascii ")") (resolutionHint pa) pa,
   complaint sResolution (docOf 9 ++ ascii " and/or " ++ docOf 10 ++ ascii " (ipp: " ++ sResolution.name ++ ascii ")") (resolutionHint pa) pa,
   plain 11 sSides,
   plain 12 sColorMode,
   [],
   complaint sPrintQuality (docOf 13) (qualityText pa) pa,
   plain 14 sScaling,
   plain 15 sDocumentFormat,
   plain 17 sMediaType,
   plain 18 sMediaSource,
   plain 19 sOutputBin,
   plain 20 sFinishings,
   ascii "Argument " ++ docOf 21 ++ ascii " (ipp: margin-*) " ++ ascii "is not supported by this printer." ++ [10],
   margin sTopMargin "top",
   margin sBottomMargin "bottom",
   margin sLeftMargin "left",
   margin sRightMargin "right",
   plain 22 sTopMargin,
   plain 23 sBottomMargin,
   plain 24 sLeftMargin,
   plain 25 sRightMargin]

/-- The text of the step that ends the program -/
def stepsSay : List (Step × Bytes) → PrintJob → Bytes
  | [], _ => []
  | (s, m) :: r, j =>
    match s j with
    | .ok (some j') => stepsSay r j'
    | .ok none => m
    | _ => []

/-- The text of an error that may be one of an exception (`error = e.what()`) -/
def caught {α : Type} (t : Talk) (x : Outcome α) (e : Bytes) : Bytes :=
  match x with
  | .throws _ => t.what
  | _ => e

/-- The text of the error of `_doRequest`, ippprinter.cpp 518-540, with this reply, or of one that the reply has -/
def replyText (t : Talk) (reply : Except Bytes Bytes) (e : Bytes) : Bytes :=
  match reply with
  | .ok data => caught t (decodeMsg data) e
  | .error _ => e

/-- The text of the error of `refresh`, ippprinter.cpp 15-57 -/
def attrsText (t : Talk) (w : World) (addr e : Bytes) : Bytes :=
  if Text.startsWith addr (ascii "file://") then
    match w.files.read (addr.drop 7) with
    | none => e
    | some [] => t.what
    | some (b :: r) =>
      if b = 123 then
        match w.files.parse (b :: r) with
        | .error _ => e
        | .ok json => caught t (attrsFromJson json) e
      else caught t (decodeMsg (b :: r)) e
  else replyText t w.attrsReply e

/-- The texts of ippprintjob.cpp 27 and 45 -/
def jobErrorText : JobError → Bytes
  | .noTarget => ascii "Failed to determine traget format"
  | .badPaper => ascii "Invalid paper size name"

/-- `job.targetFormat` in ippprinter.cpp 77 -/
def targetOf (w : World) (input : Bytes) (pages : Int) (job : PrintJob) : Bytes :=
  match finalize w.env.pipelines input pages job.copy with
  | .ok (_, j) => j.targetFormat
  | _ => []

/-- The text of the error of `runJob`, ippprinter.cpp 59-188 -/
def runText (t : Talk) (w : World) (input : Bytes) (pages : Int) (job : PrintJob) : RunError → Bytes
  | .job e => jobErrorText e
  | .noConversion => ascii "No conversion method found for " ++ input ++ ascii " to " ++ targetOf w input pages job
  | .createFailed e => ascii "Create job failed: " ++ replyText t w.env.createReply e
  | .convert e => e
  | .printFailed e => ascii "Print job failed: " ++ e
  | .network e => e
  | .exception _ => ascii "Exception caught while printing: " ++ t.what

/-- ippclient.cpp 489-528, for the job and the type of the input -/
def launchSays (t : Talk) (w : World) (p : Printer) (o : Options) (inFile : Bytes) (j : PrintJob) (ty : Bytes) : Bytes :=
  match countPages w ty inFile with
  | none => ascii "Failed to open PDF: " ++ t.opening ++ ascii " (" ++ t.absolute inFile ++ ascii ")" ++ [10]
  | some pages =>
    match saved w o j with
    | .ok (false, _) => ascii "Could not save settings. Aborting." ++ [10]
    | .ok (true, _) =>
      match (runJob { w.env with reqId := nextId w p, showJobId := o.printJobId } p j ty (fileName inFile) pages).out with
      | .ok (some e) => ascii "Print failed: " ++ runText t w ty pages j e ++ [10]
      | _ => []
    | _ => []

/-- ippclient.cpp 378-529 -/
def printSays (t : Talk) (w : World) (p : Printer) (o : Options) (inFile : Bytes) : Bytes :=
  match (do let j ← createJob p; restored w o j : Outcome PrintJob) with
  | .ok j =>
    match inputType w o inFile with
    | none => ascii "Failed to determine input file format. (Specify with --mime-type)." ++ [10]
    | some ty =>
      match runSteps (printSteps p o) (flags o j) with
      | .ok none => stepsSay ((printSteps p o).zip (stepTexts t p.attrs)) (flags o j)
      | .ok (some j') => launchSays t w p o inFile j' ty
      | _ => []
  | _ => []

/-- The text that is no pair, ippclient.cpp 334-345 -/
def badPair : List Bytes → Bytes
  | [] => []
  | s :: r =>
    match keyValue s with
    | none => s
    | some _ => badPair r

/-- `set-attrs`, ippclient.cpp 329-352 -/
def setAttrsSays (t : Talk) (w : World) (p : Printer) (text : Bytes) : Bytes :=
  match keyValues (Text.splitString [44] text) with
  | none => ascii "Bad key:value: " ++ badPair (Text.splitString [44] text) ++ [10]
  | some kvs =>
    match (setAttributes (nextId w p) p kvs w.reply).out with
    | .ok (some e) => ascii "Set attributes failed: " ++ caught t (toSet p.attrs kvs []) (replyText t w.reply e) ++ [10]
    | _ => []

/-- `get-jobs`, ippclient.cpp 353-363 -/
def getJobsSays (t : Talk) (w : World) (p : Printer) : Bytes :=
  match (getJobs (nextId w p) p w.reply).out with
  | .ok (some e, _) => ascii "Get-jobs failed: " ++ replyText t w.reply e ++ [10]
  | _ => []

/-- `cancel-job`, ippclient.cpp 364-377 -/
def cancelSays (t : Talk) (w : World) (p : Printer) : Option Int → Bytes
  | none => ascii "Please specify a job id with --id." ++ [10]
  | some id =>
    match (cancelJob (nextId w p) p id w.reply).out with
    | .ok (some e) => ascii "Cancel-job failed: " ++ replyText t w.reply e ++ [10]
    | _ => []

/-- `identify`, ippclient.cpp 316-324 -/
def identifySays (t : Talk) (w : World) (p : Printer) : Bytes :=
  match (identify (nextId w p) p w.reply).out with
  | .ok (some e) =>
    ascii "Identify failed: " ++ (if KMap.has p.attrs (ascii "identify-actions-supported") then replyText t w.reply e else e) ++ [10]
  | _ => []

/-- What a sub-command says on the standard error, ippclient.cpp 295-530 -/
def commandSays (t : Talk) (w : World) (p : Printer) (sub : Bytes) (r : Result) : Bytes :=
  if sub = ascii "info" then []
  else if sub = ascii "identify" then identifySays t w p
  else if sub = ascii "get-attrs" then []
  else if sub = ascii "set-attrs" then setAttrsSays t w p (r.positional.getD 1 [])
  else if sub = ascii "get-jobs" then getJobsSays t w p
  else if sub = ascii "cancel-job" then cancelSays t w p (numOf (r.vals 2))
  else if sub = ascii "print" then printSays t w p (Options.of r.vals) (r.positional.getD 1 [])
  else []

/-- The text of what is shown, ippclient.cpp 297-314, 327, 362 -/
def shownText (t : Talk) : Shown → Bytes
  | .nothing => []
  | .info text => text
  | .attrs j => t.dump j
  | .jobs l => jobsText l

/-- ippprinter.cpp 174 -/
def eventText : Event → Bytes
  | .submitted id => ascii "Job submitted successfully, with id: " ++ showInt id ++ [10]
  | _ => []

/-- What a run writes to the standard output besides the help -/
def runOutput (t : Talk) (x : Act End) : Bytes :=
  x.events.flatMap eventText ++ match x.out with
    | .ok e => shownText t e.shown
    | _ => []

/-- ippclient.cpp 287-530: with correct arguments -/
def printerSays (t : Talk) (w : World) (sub : Bytes) (r : Result) : Bytes :=
  match (construct w.files w.env.reqId (r.positional.getD 0 []) w.user w.attrsReply).out with
  | .ok (some e, _) => ascii "Could not get printer attributes: " ++ attrsText t w (r.positional.getD 0 []) e ++ [10]
  | .ok (none, p) => commandSays t w p sub r
  | _ => []

/-- `main`, ippclient.cpp 158-531: what it says -/
def clientSays (t : Talk) (w : World) (args : List Bytes) : Said :=
  match getSubArgs commands args with
  | .inl m => printError m (clientHelpFor t (args.headD []))
  | .inr (sub, r) =>
    if (r.vals 0).isSome then { stdout := clientHelpFor t sub }
    else if r.success then { stdout := runOutput t (main w args), stderr := printerSays t w sub r }
    else printError r.errMsg (clientHelpFor t sub)

/-! ## Specification -/

namespace Spec

/-- Help on what all sub-commands have -/
def commonLines : List String := ["  -h, --help       Print this help text", "  -v, --verbose    Be verbose, print headers and progress"]

/-- The sub-commands with their help, behind the names -/
def clientHelp : List (String × List String) :=
  [("info", " [options] <printer address>" :: commonLines),
   ("identify", " [options] <printer address>" :: commonLines),
   ("get-attrs", " [options] <printer address>" :: commonLines),
   ("set-attrs", " [options] <printer address> <name=value[,name=value]>" :: commonLines),
   ("get-jobs", " [options] <printer address>" :: commonLines),
   ("cancel-job", " [options] <printer address>" :: commonLines ++ ["  --id <int>       Id of print job."]),
   ("print",
    [" [options] <printer address> <input file>",
     "  -h, --help                    Print this help text",
     "  -v, --verbose                 Be verbose, print headers and progress",
     "  -f, --force                   Force use of unsupported options",
     "  --one-stage                   Force use of one-stage print job",
     "  -p, --pages <string>          What pages to process, e.g.: 1,17-42,69-",
     "  --copies <int>                Number of copies to output",
     "  --collated-copies <choice>    Request collated copies (yes/no)",
     "  --paper-size <string>         Paper size to output, e.g.: iso_a4_210x297mm",
     "  -r, --resolution <int>        Resolution (in DPI) for rasterization",
     "  -rx, --resolution-x <int>     Resolution (in DPI) for rasterization, x-axis",
     "  -ry, --resolution-y <int>     Resolution (in DPI) for rasterization, y-axis",
     "  -s, --sides <string>          Sides (as per IPP)",
     "  -c, --color-mode <string>     Color mode (as per IPP)",
     "  -q, --quality <choice>        Quality (draft/normal/high)",
     "  --scaling <string>            Scaling (as per IPP)",
     "  --format <string>             Transfer format",
     "  --mime-type <string>          Input file mime-type",
     "  --media-type <string>         Media type (as per IPP)",
     "  --media-source <string>       Media source (as per IPP)",
     "  --output-bin <string>         Output bin (as per IPP)",
     "  --finishings <int>            Finishing to apply (as per IPP)",
     "  -m, --margin <int>            Margin (as per IPP)",
     "  -tm, --top-margin <int>       Top margin (as per IPP)",
     "  -bm, --bottom-margin <int>    Bottom margin (as per IPP)",
     "  -lm, --left-margin <int>      Left margin (as per IPP)",
     "  -rm, --right-margin <int>     Right margin (as per IPP)",
     "  -aa, --antialias              Enable antialiasing in rasterization",
     "  --print-job-id                Print job id on successful submission",
     "  --save                        Save options as local defaults for future jobs"])]

/-- The help, with these sub-commands -/
def usageOf (name : Bytes) (subs : List (String × List String)) : Bytes :=
  ascii "Usage: " ++ name ++ ascii " <sub-command> [options]\n\n" ++ subs.flatMap (fun s => name ++ ascii " " ++ ascii s.1 ++ Convert.Spec.lines s.2 ++ [10]) ++ [10, 10]

/-- The help on a sub-command -/
def Usage (name sub text : Bytes) : Prop := ∃ s ∈ clientHelp, ascii s.1 = sub ∧ text = usageOf name [s]

/-- One of the sub-commands, the request for help among the options behind it -/
def HelpWanted (sub : Bytes) (rest : List Bytes) : Prop := ∃ opts poss, (sub, opts, poss) ∈ commands ∧ AsksHelp opts rest

/-- An accepted command line, and no request for help in it -/
def Given (args : List Bytes) (sub : Bytes) (uses : List Use) (pos : List Bytes) : Prop :=
  ∃ opts poss rest, (sub, opts, poss) ∈ commands ∧ args = sub :: rest ∧ Accounts opts poss rest uses pos ∧ ¬ AsksHelp opts rest

/-- The printer's attributes have come in. -/
def Connected (w : World) (addr : Bytes) (p : Printer) : Prop := (construct w.files w.env.reqId addr w.user w.attrsReply).out = .ok (none, p)

/-- No message came, and why: the text of the network, or that of the exception -/
def NoReply (t : Talk) (reply : Except Bytes Bytes) (reason : Bytes) : Prop :=
  reply = .error reason ∨ ∃ data e, reply = .ok data ∧ decodeMsg data = .throws e ∧ reason = t.what

/-- What the printer says about a refusal -/
def StatusMessage (m : Msg) (s : Bytes) : Prop :=
  (∃ tag, KMap.get? m.opAttrs (ascii "status-message") = some (tag, .str s)) ∨ (KMap.get? m.opAttrs (ascii "status-message") = none ∧ s = ascii "unknown")

/-- Why there are no attributes of a printer -/
inductive NoAttributes (t : Talk) (w : World) : Bytes → Bytes → Prop
  | noFile {path : Bytes} : w.files.read path = none → NoAttributes t w (ascii "file://" ++ path) (ascii "Failed to open fake-printer file.")
  | empty {path : Bytes} : w.files.read path = some [] → NoAttributes t w (ascii "file://" ++ path) t.what
  | noJson {path r e : Bytes} : w.files.read path = some (123 :: r) → w.files.parse (123 :: r) = .error e → NoAttributes t w (ascii "file://" ++ path) e
  | json {path r : Bytes} {j : Json} {e : Exn} : w.files.read path = some (123 :: r) → w.files.parse (123 :: r) = .ok j → attrsFromJson j = .throws e →
      NoAttributes t w (ascii "file://" ++ path) t.what
  | message {path r : Bytes} {b : UInt8} {e : Exn} : w.files.read path = some (b :: r) → b ≠ 123 → decodeMsg (b :: r) = .throws e →
      NoAttributes t w (ascii "file://" ++ path) t.what
  | reply {addr reason : Bytes} : ¬ ascii "file://" <+: addr → NoReply t w.attrsReply reason → NoAttributes t w addr reason

/-- What is said about a value that the printer does not support: that there is nothing to choose from, or what there is -/
def Objection (p : Printer) (attr label : Bytes) (hint : Bytes → Prop) (m : Bytes) : Prop :=
  (KMap.get? p.attrs (attr ++ ascii "-supported") = none ∧ m = ascii "Argument " ++ label ++ ascii " is not supported by this printer.\n") ∨
  (KMap.get? p.attrs (attr ++ ascii "-supported") ≠ none ∧ ∃ h, hint h ∧ m = ascii "Argument " ++ label ++ ascii " has an invalid value. \n" ++ h ++ [10])

/-- What the printer supports, as it is -/
def Choices (p : Printer) (attr : Bytes) (h : Bytes) : Prop := ∃ a s, KMap.get? p.attrs (attr ++ ascii "-supported") = some a ∧ Written a.2 s ∧ h = ascii "Valid values are: " ++ s

/-- The same for a side's margin -/
def MarginChoices (p : Printer) (side attr : Bytes) (h : Bytes) : Prop :=
  ∃ a s, KMap.get? p.attrs (attr ++ ascii "-supported") = some a ∧ Written a.2 s ∧ h = ascii "Valid values for " ++ side ++ ascii " margin are: " ++ s

/-- The paper sizes, those that are ready with a mark (C82_media) -/
def MediaChoices (p : Printer) (h : Bytes) : Prop := h = ascii "Valid values are: " ++ preferredStr sMedia (ascii "ready") p.attrs

/-- The resolutions (C82_resolutions_partial) -/
def ResolutionChoices (p : Printer) (h : Bytes) : Prop := ∃ l, sResolution.choices p.attrs = .ok l ∧ h = ascii "Valid values are: " ++ resolutionList l

/-- The qualities (C82_quality) -/
def QualityChoices (p : Printer) (h : Bytes) : Prop := ∃ s, qualityHint p.attrs = .ok s ∧ h = ascii "Valid values are: " ++ s

/-- An objection to the value of an option, if it has one -/
def value (p : Printer) (o : Options) (label attr : String) (given : Option Value) : Prop × (Bytes → Prop) :=
  (Unsupported p (ascii attr) given o.force, Objection p (ascii attr) (ascii label ++ ascii " (ipp: " ++ ascii attr ++ ascii ")") (Choices p (ascii attr)))

/-- An objection to `-m` for one side -/
def side (p : Printer) (o : Options) (name attr : String) : Prop × (Bytes → Prop) :=
  (Unsupported p (ascii attr) (o.margin.map .int) o.force, Objection p (ascii attr) (ascii "-m, --margin <int>") (MarginChoices p (ascii name) (ascii attr)))

/-- What `print` objects to, in this order, and what it says about it; `name` is the program's name -/
def objections (name : Bytes) (p : Printer) (o : Options) : List (Prop × (Bytes → Prop)) :=
  [((∃ text, o.pages = some text ∧ ∀ rs, ¬ DenotesRanges text rs), fun m => ∃ u, Usage name (ascii "print") u ∧ m = ascii "Invalid page range.\n\n" ++ u),
   ((∃ n, o.copies = some n ∧ ¬ CopiesSupported p n ∧ ¬ TakesRaster p ∧ o.force = false),
     Objection p (ascii "copies") (ascii "--copies <int> (ipp: copies)") (Choices p (ascii "copies"))),
   value p o "--collated-copies <choice>" "multiple-document-handling" (o.collatedCopies.map .str),
   (Unsupported p (ascii "media") (o.paperSize.map .str) o.force, Objection p (ascii "media") (ascii "--paper-size <string> (ipp: media)") (MediaChoices p)),
   (o.hwResX.isSome ≠ o.hwResY.isSome, fun m => ∃ u, Usage name (ascii "print") u ∧ m = ascii "Resolution must be specified for both dimensions.\n\n" ++ u),
   (Unsupported p (ascii "printer-resolution") (bothOf o.hwRes o.hwRes) o.force,
     Objection p (ascii "printer-resolution") (ascii "-r, --resolution <int> (ipp: printer-resolution)") (ResolutionChoices p)),
   (Unsupported p (ascii "printer-resolution") (bothOf o.hwResX o.hwResY) o.force,
     Objection p (ascii "printer-resolution") (ascii "-rx, --resolution-x <int> and/or -ry, --resolution-y <int> (ipp: printer-resolution)") (ResolutionChoices p)),
   value p o "-s, --sides <string>" "sides" (o.sides.map .str),
   value p o "-c, --color-mode <string>" "print-color-mode" (o.colorMode.map .str),
   (Unsupported p (ascii "print-quality") (o.quality.map .int) o.force, Objection p (ascii "print-quality") (ascii "-q, --quality <choice>") (QualityChoices p)),
   value p o "--scaling <string>" "print-scaling" (o.scaling.map .str),
   value p o "--format <string>" "document-format" (o.format.map .str),
   value p o "--media-type <string>" "media-type" (o.mediaType.map .str),
   value p o "--media-source <string>" "media-source" (o.mediaSource.map .str),
   value p o "--output-bin <string>" "output-bin" (o.outputBin.map .str),
   value p o "--finishings <int>" "finishings" (o.finishing.map .int),
   (NoMargins p o, fun m => m = ascii "Argument -m, --margin <int> (ipp: margin-*) is not supported by this printer.\n"),
   side p o "top" "media-top-margin", side p o "bottom" "media-bottom-margin", side p o "left" "media-left-margin", side p o "right" "media-right-margin",
   value p o "-tm, --top-margin <int>" "media-top-margin" (o.topMargin.map .int),
   value p o "-bm, --bottom-margin <int>" "media-bottom-margin" (o.bottomMargin.map .int),
   value p o "-lm, --left-margin <int>" "media-left-margin" (o.leftMargin.map .int),
   value p o "-rm, --right-margin <int>" "media-right-margin" (o.rightMargin.map .int)]

/-- `m` is what is said about the first thing in the list that is the case. -/
inductive FirstOf : List (Prop × (Bytes → Prop)) → Bytes → Prop
  | here {P : Prop} {M : Bytes → Prop} {l : List (Prop × (Bytes → Prop))} {m : Bytes} : P → M m → FirstOf ((P, M) :: l) m
  | later {P : Prop} {M : Bytes → Prop} {l : List (Prop × (Bytes → Prop))} {m : Bytes} : ¬ P → FirstOf l m → FirstOf ((P, M) :: l) m

/-- Why a job fails (`job` as `print` makes it, C75), and what is said about it -/
inductive RunFault (t : Talk) (w : World) (p : Printer) (job : PrintJob) (input fileName : Bytes) (pages : Int) : Bytes → Prop
  | target {j : PrintJob} : finalize w.env.pipelines input pages job.copy = .ok (some .noTarget, j) →
      RunFault t w p job input fileName pages (ascii "Failed to determine traget format")
  | paper {j : PrintJob} : finalize w.env.pipelines input pages job.copy = .ok (some .badPaper, j) →
      RunFault t w p job input fileName pages (ascii "Invalid paper size name")
  | conversion {j : PrintJob} : finalize w.env.pipelines input pages job.copy = .ok (none, j) → getConvertFun w.env.pipelines input j.targetFormat = none →
      RunFault t w p job input fileName pages (ascii "No conversion method found for " ++ input ++ ascii " to " ++ j.targetFormat)
  | converter {j : PrintJob} {f : ConvertFun} {e : Bytes} : finalize w.env.pipelines input pages job.copy = .ok (none, j) → ¬ IsFile p →
      getConvertFun w.env.pipelines input j.targetFormat = some f → (w.env.convert f j).2 = .ok (some e) → RunFault t w p job input fileName pages e
  | notCreated {r : Bytes} : ¬ IsFile p → NoReply t w.env.createReply r → RunFault t w p job input fileName pages (ascii "Create job failed: " ++ r)
  | creation {m : Msg} {s : Bytes} : ¬ IsFile p → Says w.env.createReply m → (0xff < m.opOrStatus ∨ KMap.has (m.jobAttrs.head?.getD []) (ascii "job-id") = false) →
      StatusMessage m s → RunFault t w p job input fileName pages (ascii "Create job failed: " ++ s)
  | document {m : Msg} {s : Bytes} : ¬ IsFile p → Says w.env.printReply m → 0xff ≤ m.opOrStatus → StatusMessage m s →
      RunFault t w p job input fileName pages (ascii "Print job failed: " ++ s)
  | network {e : Bytes} : ¬ IsFile p → w.env.printReply = .error e → RunFault t w p job input fileName pages e
  | exception {e : Exn} {env : Env} : (∃ n b, env = { w.env with reqId := n, showJobId := b }) → (tryRun env p job.copy input fileName pages).out = .throws e →
      RunFault t w p job input fileName pages (ascii "Exception caught while printing: " ++ t.what)

/-- The type of the input is known, and there is nothing to object to. -/
def Accepted (name : Bytes) (w : World) (p : Printer) (o : Options) (inFile : Bytes) : Prop := ¬ NoType w o inFile ∧ ∀ x ∈ objections name p o, ¬ x.1

/-- What `print` says when it ends with 1, and why: the first reason that there is counts. -/
inductive PrintComplaint (t : Talk) (w : World) (p : Printer) (o : Options) (inFile : Bytes) : Bytes → Prop
  | type : NoType w o inFile → PrintComplaint t w p o inFile (ascii "Failed to determine input file format. (Specify with --mime-type).\n")
  | option {m : Bytes} : ¬ NoType w o inFile → FirstOf (objections t.name p o) m → PrintComplaint t w p o inFile m
  | opening : Accepted t.name w p o inFile → TypeTold w o inFile (ascii "application/pdf") → w.pdfPages inFile = none →
      PrintComplaint t w p o inFile (ascii "Failed to open PDF: " ++ t.opening ++ ascii " (" ++ t.absolute inFile ++ ascii ")\n")
  | saving {ty : Bytes} {n : Int} : Accepted t.name w p o inFile → TypeTold w o inFile ty → countPages w ty inFile = some n → o.save = true →
      KMap.get? p.attrs (ascii "printer-uuid") = none → PrintComplaint t w p o inFile (ascii "Could not save settings. Aborting.\n")
  | printing {job : PrintJob} {ty reason : Bytes} {n : Int} : Accepted t.name w p o inFile → prepare w p o inFile = .ok (some (job, ty)) → countPages w ty inFile = some n →
      (o.save = true → KMap.get? p.attrs (ascii "printer-uuid") ≠ none) → RunFault t w p job ty (fileName inFile) n reason →
      PrintComplaint t w p o inFile (ascii "Print failed: " ++ reason ++ [10])

/-- A text with not exactly one `=`, and nothing of this kind before it -/
def BadPair (text kv : Bytes) : Prop :=
  ∃ before after, Text.splitString [44] text = before ++ kv :: after ∧ kv.count 61 ≠ 1 ∧ ∀ s ∈ before, s.count 61 = 1

/-- What ippclient says on the standard error when it ends with 1, and why -/
inductive ClientComplaint (t : Talk) (w : World) : List Bytes → Bytes → Prop
  | none : ClientComplaint t w [] (ascii "No sub-command given\n\n" ++ usageOf t.name clientHelp)
  | unknown {sub : Bytes} {rest : List Bytes} : (∀ s ∈ clientHelp, ascii s.1 ≠ sub) →
      ClientComplaint t w (sub :: rest) (ascii "Invalid sub-command\n\n" ++ usageOf t.name clientHelp)
  | usage {sub m u : Bytes} {opts : List Opt} {poss : List Pos} {uses : List Use} {rest : List Bytes} : (sub, opts, poss) ∈ commands → (∀ u ∈ uses, IsUse opts u) →
      Fault opts poss rest m → Usage t.name sub u → ClientComplaint t w (sub :: ((uses.map (·.words)).flatten ++ rest)) (m ++ [10, 10] ++ u)
  | attributes {args pos : List Bytes} {sub addr r : Bytes} {uses : List Use} : Given args sub uses (addr :: pos) → NoAttributes t w addr r →
      ClientComplaint t w args (ascii "Could not get printer attributes: " ++ r ++ [10])
  | cannotIdentify {args : List Bytes} {addr : Bytes} {uses : List Use} {p : Printer} : Given args (ascii "identify") uses [addr] → Connected w addr p →
      KMap.get? p.attrs (ascii "identify-actions-supported") = .none → ClientComplaint t w args (ascii "Identify failed: Identify not supported.\n")
  | identify {args : List Bytes} {addr r : Bytes} {uses : List Use} {p : Printer} : Given args (ascii "identify") uses [addr] → Connected w addr p →
      NoReply t w.reply r → ClientComplaint t w args (ascii "Identify failed: " ++ r ++ [10])
  | pair {args : List Bytes} {addr text kv : Bytes} {uses : List Use} {p : Printer} : Given args (ascii "set-attrs") uses [addr, text] → Connected w addr p →
      BadPair text kv → ClientComplaint t w args (ascii "Bad key:value: " ++ kv ++ [10])
  | badValue {args : List Bytes} {addr text k v : Bytes} {uses : List Use} {p : Printer} {old : Attr} {e : Exn} : Given args (ascii "set-attrs") uses [addr, text] →
      Connected w addr p → k ++ [61] ++ v ∈ Text.splitString [44] text → KMap.get? p.attrs k = some old → Printer.fromString v old.1 = .throws e →
      ClientComplaint t w args (ascii "Set attributes failed: " ++ t.what ++ [10])
  | set {args : List Bytes} {addr text r : Bytes} {uses : List Use} {p : Printer} : Given args (ascii "set-attrs") uses [addr, text] → Connected w addr p →
      NoReply t w.reply r → ClientComplaint t w args (ascii "Set attributes failed: " ++ r ++ [10])
  | jobs {args : List Bytes} {addr r : Bytes} {uses : List Use} {p : Printer} : Given args (ascii "get-jobs") uses [addr] → Connected w addr p →
      NoReply t w.reply r → ClientComplaint t w args (ascii "Get-jobs failed: " ++ r ++ [10])
  | noId {args : List Bytes} {addr : Bytes} {uses : List Use} {p : Printer} : Given args (ascii "cancel-job") uses [addr] → Connected w addr p →
      lastUse uses [ascii "--id"] = .none → ClientComplaint t w args (ascii "Please specify a job id with --id.\n")
  | cancel {args : List Bytes} {addr r : Bytes} {uses : List Use} {p : Printer} : Given args (ascii "cancel-job") uses [addr] → Connected w addr p →
      NoReply t w.reply r → ClientComplaint t w args (ascii "Cancel-job failed: " ++ r ++ [10])
  | notCanceled {args : List Bytes} {addr s : Bytes} {uses : List Use} {p : Printer} {m : Msg} : Given args (ascii "cancel-job") uses [addr] → Connected w addr p →
      Says w.reply m → 0xff < m.opOrStatus → StatusMessage m s → ClientComplaint t w args (ascii "Cancel-job failed: " ++ s ++ [10])
  | print {args : List Bytes} {addr inFile m : Bytes} {uses : List Use} {p : Printer} : Given args (ascii "print") uses [addr, inFile] → Connected w addr p →
      PrintComplaint t w p (Options.of (lastValue uses)) inFile m → ClientComplaint t w args m

/-- What ippclient says on the standard output when it ends with 0 and no help was asked for -/
inductive ClientOutput (t : Talk) (w : World) (args : List Bytes) : Bytes → Prop
  | info {addr text : Bytes} {uses : List Use} {p : Printer} : Given args (ascii "info") uses [addr] → Connected w addr p → info w.env.pipelines p = .ok text →
      ClientOutput t w args text
  | attributes {addr : Bytes} {uses : List Use} {p : Printer} : Given args (ascii "get-attrs") uses [addr] → Connected w addr p →
      ClientOutput t w args (t.dump (attrsToJson p.attrs))
  | jobs {addr : Bytes} {uses : List Use} {p : Printer} {m : Msg} {l : List JobInfo} : Given args (ascii "get-jobs") uses [addr] → Connected w addr p →
      Says w.reply m → jobInfos m.jobAttrs = .ok l → ClientOutput t w args (jobsText l)
  | nothing {addr sub : Bytes} {pos : List Bytes} {uses : List Use} {p : Printer} {m : Msg} : Given args sub uses (addr :: pos) → Connected w addr p →
      sub ∈ [ascii "identify", ascii "set-attrs", ascii "cancel-job"] → Says w.reply m → (sub = ascii "cancel-job" → ¬ 0xff < m.opOrStatus) → ClientOutput t w args []
  | printed {addr inFile : Bytes} {uses : List Use} {p : Printer} : Given args (ascii "print") uses [addr, inFile] → Connected w addr p →
      Accepted t.name w p (Options.of (lastValue uses)) inFile → (lastUse uses [ascii "--print-job-id"] = none ∨ IsFile p) → ClientOutput t w args []
  | number {addr inFile : Bytes} {uses : List Use} {p : Printer} {ids : List Int} : Given args (ascii "print") uses [addr, inFile] → Connected w addr p →
      Accepted t.name w p (Options.of (lastValue uses)) inFile → lastUse uses [ascii "--print-job-id"] ≠ none → ¬ IsFile p → ToldOr0 w.env.printReply ids →
      ClientOutput t w args (ids.flatMap (fun i => ascii "Job submitted successfully, with id: " ++ showInt i ++ [10]))

/-- What ippclient leaves behind: its exit code and what it has said -/
def Outcomes (t : Talk) (w : World) (args : List Bytes) (code : Nat) (s : Said) : Prop :=
  (∃ sub rest, args = sub :: rest ∧ HelpWanted sub rest ∧ code = 0 ∧ Usage t.name sub s.stdout ∧ s.stderr = []) ∨
  ((∀ sub rest, args = sub :: rest → ¬ HelpWanted sub rest) ∧
    ((code = 0 ∧ ClientOutput t w args s.stdout ∧ s.stderr = []) ∨ (code = 1 ∧ s.stdout = [] ∧ ClientComplaint t w args s.stderr)))

end Spec

open Verif.Client.Spec

/-! ## Proofs: the help -/

theorem told_commands : commandsTold.map (fun s => (s.1, s.2.1.map (·.1), s.2.2)) = commands := rfl

set_option maxRecDepth 100000 in
theorem help_table : commandsTold.map (fun s => (s.1, argHelpRest s.2.1 s.2.2)) = clientHelp.map (fun s => (ascii s.1, Convert.Spec.lines s.2)) := by decide +kernel

theorem subArgHelp_table (name : Bytes) (subs : List (Bytes × List (Opt × Bytes) × List Pos)) (sub : Bytes) :
    subArgHelp name subs sub = ascii "Usage: " ++ name ++ ascii " <sub-command> [options]" ++ [10, 10] ++
      match (subs.map (fun s => (s.1, argHelpRest s.2.1 s.2.2))).find? (fun s => s.1 == sub) with
      | some s => name ++ ascii " " ++ sub ++ s.2 ++ [10]
      | none => (subs.map (fun s => (s.1, argHelpRest s.2.1 s.2.2))).flatMap (fun s => name ++ ascii " " ++ s.1 ++ s.2 ++ [10]) := by
  unfold subArgHelp
  rw [List.find?_map]
  simp only [Function.comp_def, List.flatMap_map]
  cases List.find? (fun s => s.1 == sub) subs <;> rfl

theorem help_usage {sub : Bytes} (t : Talk) (h : ∃ s ∈ clientHelp, ascii s.1 = sub) : Usage t.name sub (clientHelpFor t sub) := by
  unfold clientHelpFor
  rw [subArgHelp_table, help_table, List.find?_map]
  simp only [Function.comp_def]
  cases hf : List.find? (fun s => ascii s.1 == sub) clientHelp with
  | none =>
    obtain ⟨s, hs, he⟩ := h
    exact absurd (List.find?_eq_none.mp hf s hs) (by simp [he])
  | some s =>
    have he : ascii s.1 = sub := by simpa using List.find?_some hf
    refine ⟨s, List.mem_of_find?_eq_some hf, he, ?_⟩
    have e : ascii " <sub-command> [options]\n\n" = ascii " <sub-command> [options]" ++ [10, 10] := by decide +kernel
    subst he
    unfold usageOf
    rw [e]
    simp

theorem help_all {sub : Bytes} (t : Talk) (h : ∀ s ∈ clientHelp, ascii s.1 ≠ sub) : clientHelpFor t sub = usageOf t.name clientHelp := by
  unfold clientHelpFor
  rw [subArgHelp_table, help_table, List.find?_map]
  simp only [Function.comp_def]
  rw [List.find?_eq_none.mpr (fun s hs => by simpa using h s hs)]
  have e : ascii " <sub-command> [options]\n\n" = ascii " <sub-command> [options]" ++ [10, 10] := by decide +kernel
  unfold usageOf
  rw [e]
  simp [List.flatMap_map]

theorem command_helped {sub : Bytes} {opts : List Opt} {poss : List Pos} (hc : (sub, opts, poss) ∈ commands) : ∃ s ∈ clientHelp, ascii s.1 = sub := by
  have all : ∀ n ∈ commands.map (·.1), ∃ s ∈ clientHelp, ascii s.1 = n := by decide +kernel
  exact all sub (List.mem_map.mpr ⟨_, hc, rfl⟩)

theorem helped_command {sub : Bytes} (h : ∃ s ∈ clientHelp, ascii s.1 = sub) : ∃ opts poss, (sub, opts, poss) ∈ commands := by
  have all : ∀ s ∈ clientHelp, ascii s.1 ∈ commands.map (·.1) := by decide +kernel
  obtain ⟨s, hs, rfl⟩ := h
  obtain ⟨⟨n, opts, poss⟩, hc, he⟩ := List.mem_map.mp (all s hs)
  simp only at he
  subst he
  exact ⟨opts, poss, hc⟩

theorem subArgs_none {sub : Bytes} {rest : List Bytes} {m : Bytes} (h : getSubArgs commands (sub :: rest) = .inl m) :
    m = ascii "Invalid sub-command" ∧ ∀ s ∈ clientHelp, ascii s.1 ≠ sub := by
  unfold getSubArgs at h
  simp only at h
  cases hf : commands.reverse.find? (fun s => s.1 == sub) with
  | some s => rw [hf] at h; cases h
  | none =>
    rw [hf] at h
    cases h
    refine ⟨rfl, fun s hs he => ?_⟩
    obtain ⟨opts, poss, hc⟩ := helped_command ⟨s, hs, he⟩
    exact absurd (List.find?_eq_none.mp hf _ (List.mem_reverse.mpr hc)) (by simp)

theorem printError_text (m help : Bytes) : (printError m help).stderr = m ++ [10, 10] ++ help := by simp [printError]

/-! ## Proofs: replies -/

theorem received_error {reply : Except Bytes Bytes} {e : Bytes} (t : Talk) (h : received reply = .ok (.error e)) : NoReply t reply (replyText t reply e) := by
  unfold received at h
  cases reply with
  | error x => cases h; exact .inl rfl
  | ok data =>
    right
    simp only at h
    cases hd : decodeMsg data with
    | throws x => exact ⟨data, x, rfl, hd, by simp [replyText, caught, hd]⟩
    | _ => rw [hd] at h; cases h

theorem received_message {reply : Except Bytes Bytes} {m : Msg} (h : received reply = .ok (.ok m)) : Says reply m ∧ ∀ (t : Talk) e, replyText t reply e = e := by
  unfold received at h
  cases reply with
  | error x => cases h
  | ok data =>
    simp only at h
    cases hd : decodeMsg data with
    | ok x => rw [hd] at h; cases h; exact ⟨⟨data, x.2, rfl, hd⟩, fun t e => by simp [replyText, caught, hd]⟩
    | _ => rw [hd] at h; cases h

theorem doRequest_received {n : Nat} {m : Msg} {reply : Except Bytes Bytes} {r : Except Bytes Msg} (h : (doRequest n m reply).out = .ok r) : received reply = .ok r := by
  unfold doRequest at h
  obtain ⟨b, -, h⟩ := bind_out h
  obtain ⟨b, -, h⟩ := bind_out h
  exact h

theorem errorOf_some {r : Except Bytes Msg} {e : Bytes} (h : errorOf r = some e) : r = .error e := by
  cases r with
  | error x => cases h; rfl
  | ok m => cases h

theorem status_message {m : Msg} {s : Bytes} (h : getString m.opAttrs (ascii "status-message") (ascii "unknown") = .ok s) : StatusMessage m s := by
  unfold getString Attrs.get at h
  cases hk : KMap.get? m.opAttrs (ascii "status-message") with
  | none => rw [hk] at h; cases h; exact .inr ⟨hk, rfl⟩
  | some x =>
    obtain ⟨tag, v⟩ := x
    rw [hk] at h
    cases v with
    | str s' => cases h; exact .inl ⟨tag, hk⟩
    | _ => cases h

/-- What the requests of `identify`, `get-jobs` and `cancel-job` end with -/
theorem identify_some {t : Talk} {n : Nat} {p : Printer} {reply : Except Bytes Bytes} {e : Bytes} (h : (identify n p reply).out = .ok (some e)) :
    (KMap.get? p.attrs (ascii "identify-actions-supported") = none ∧ e = ascii "Identify not supported.") ∨
    (KMap.has p.attrs (ascii "identify-actions-supported") = true ∧ NoReply t reply (replyText t reply e)) := by
  unfold identify at h
  split at h
  · rename_i hk
    obtain ⟨m, -, h⟩ := bind_out h
    obtain ⟨r, hr, h⟩ := bind_out h
    injection h with h
    rw [errorOf_some h] at hr
    exact .inr ⟨hk, received_error t (doRequest_received hr)⟩
  · rename_i hk
    cases h
    refine .inl ⟨?_, rfl⟩
    cases hg : KMap.get? p.attrs (ascii "identify-actions-supported") with
    | none => rfl
    | some a => exact absurd (by simp [KMap.has, hg]) hk

theorem jobs_some {t : Talk} {n : Nat} {p : Printer} {reply : Except Bytes Bytes} {e : Bytes} {l : List JobInfo} (h : (getJobs n p reply).out = .ok (some e, l)) :
    NoReply t reply (replyText t reply e) := by
  unfold getJobs at h
  obtain ⟨m, -, h⟩ := bind_out h
  obtain ⟨r, hr, h⟩ := bind_out h
  have h : listJobs r = .ok (some e, l) := h
  cases r with
  | error x => cases h; exact received_error t (doRequest_received hr)
  | ok m =>
    simp only [listJobs] at h
    obtain ⟨l', -, h⟩ := Outcome.bind_eq_ok.mp h
    cases h

theorem jobs_none {n : Nat} {p : Printer} {reply : Except Bytes Bytes} {l : List JobInfo} (h : (getJobs n p reply).out = .ok (none, l)) :
    ∃ m, Says reply m ∧ jobInfos m.jobAttrs = .ok l := by
  unfold getJobs at h
  obtain ⟨m, -, h⟩ := bind_out h
  obtain ⟨r, hr, h⟩ := bind_out h
  have h : listJobs r = .ok (none, l) := h
  cases r with
  | error x => cases h
  | ok m =>
    simp only [listJobs] at h
    obtain ⟨l', hl, h⟩ := Outcome.bind_eq_ok.mp h
    cases h
    exact ⟨m, (received_message (doRequest_received hr)).1, hl⟩

theorem cancel_some {t : Talk} {n : Nat} {p : Printer} {id : Int} {reply : Except Bytes Bytes} {e : Bytes} (h : (cancelJob n p id reply).out = .ok (some e)) :
    NoReply t reply (replyText t reply e) ∨ ∃ m, Says reply m ∧ 0xff < m.opOrStatus ∧ StatusMessage m (replyText t reply e) := by
  unfold cancelJob at h
  obtain ⟨m, -, h⟩ := bind_out h
  obtain ⟨r, hr, h⟩ := bind_out h
  have h : cancelResult r = .ok (some e) := h
  cases r with
  | error x => cases h; exact .inl (received_error t (doRequest_received hr))
  | ok m =>
    obtain ⟨g1, g2⟩ := received_message (doRequest_received hr)
    simp only [cancelResult] at h
    split at h
    · rename_i hs
      obtain ⟨s, hm, h⟩ := Outcome.bind_eq_ok.mp h
      cases h
      exact .inr ⟨m, g1, hs, by rw [g2]; exact status_message hm⟩
    · cases h

theorem toSet_throws {pa : Attrs} {kvs : List (Bytes × Bytes)} : ∀ {acc : Attrs} {e : Exn}, toSet pa kvs acc = .throws e →
    ∃ k v old, (k, v) ∈ kvs ∧ KMap.get? pa k = some old ∧ Printer.fromString v old.1 = .throws e := by
  induction kvs with
  | nil => intro acc e h; cases h
  | cons kv r ih =>
    obtain ⟨k, v⟩ := kv
    intro acc e h
    unfold toSet at h
    cases hg : KMap.get? pa k with
    | none =>
      rw [hg] at h
      obtain ⟨k', v', old, h1, h2⟩ := ih h
      exact ⟨k', v', old, List.mem_cons_of_mem _ h1, h2⟩
    | some old =>
      rw [hg] at h
      simp only at h
      cases hf : Printer.fromString v old.1 with
      | throws x => rw [hf] at h; cases h; exact ⟨k, v, old, List.mem_cons_self, hg, hf⟩
      | ok a =>
        rw [hf] at h
        obtain ⟨k', v', old', h1, h2⟩ := ih h
        exact ⟨k', v', old', List.mem_cons_of_mem _ h1, h2⟩
      | ub => rw [hf] at h; cases h
      | hang => rw [hf] at h; cases h

theorem keyValue_some {s k v : Bytes} (h : keyValue s = some (k, v)) : s = k ++ [61] ++ v ∧ s.count 61 = 1 := by
  unfold keyValue at h
  simp only at h
  have hw : s = s.takeWhile (fun c => decide (c ≠ 61)) ++ s.drop (s.takeWhile (fun c => decide (c ≠ 61))).length := by
    conv => lhs; rw [← List.takeWhile_append_dropWhile (p := fun c => decide (c ≠ 61)) (l := s)]
    congr 1
    conv => rhs; arg 2; rw [← List.takeWhile_append_dropWhile (p := fun c => decide (c ≠ 61)) (l := s)]
    rw [List.drop_left]
  have hd : s.drop (s.takeWhile (fun c => decide (c ≠ 61))).length = s.dropWhile (fun c => decide (c ≠ 61)) := by
    have h2 := List.takeWhile_append_dropWhile (p := fun c => decide (c ≠ 61)) (l := s)
    conv => lhs; arg 2; rw [← h2]
    rw [List.drop_left]
  rw [hd] at h hw
  cases he : s.dropWhile (fun c => decide (c ≠ 61)) with
  | nil => rw [he] at h; cases h
  | cons b r =>
    rw [he] at h hw
    simp only at h
    split at h
    · cases h
    · rename_i hn
      cases h
      have hb : b = 61 := by
        have := List.head?_dropWhile_not (fun c : UInt8 => decide (c ≠ 61)) s
        rw [he] at this
        simpa using this
      subst hb
      refine ⟨by simpa using hw, ?_⟩
      rw [hw, List.count_append, List.count_cons, List.count_eq_zero.mpr hn, List.count_eq_zero.mpr]
      · simp
      · intro hm
        have := List.all_eq_true.mp (List.all_takeWhile (p := fun c : UInt8 => decide (c ≠ 61)) (l := s)) 61 hm
        simp at this

theorem keyValue_none {s : Bytes} (h : keyValue s = none) : s.count 61 ≠ 1 := by
  intro hc
  have hm : (61 : UInt8) ∈ s := List.count_pos_iff.mp (by omega)
  obtain ⟨k, v, hs, hk⟩ := List.append_of_mem hm |> fun _ => List.eq_append_cons_of_mem hm
  have hv : (61 : UInt8) ∉ v := by
    intro hv
    rw [hs, List.count_append, List.count_cons] at hc
    have := List.count_pos_iff.mpr hv
    simp at hc
    omega
  have ht : s.takeWhile (fun c => decide (c ≠ 61)) = k := by
    rw [hs, List.takeWhile_append_of_pos (fun c hcm => by simp; rintro rfl; exact hk hcm)]
    simp
  unfold keyValue at h
  simp only [ht] at h
  rw [hs, List.drop_left] at h
  simp [hv] at h

theorem badPair_of {l : List Bytes} (h : keyValues l = none) : ∃ before after, l = before ++ badPair l :: after ∧ (badPair l).count 61 ≠ 1 ∧ ∀ s ∈ before, s.count 61 = 1 := by
  induction l with
  | nil => cases h
  | cons s r ih =>
    unfold keyValues at h
    unfold badPair
    cases hk : keyValue s with
    | none => exact ⟨[], r, rfl, keyValue_none hk, fun _ h => by cases h⟩
    | some kv =>
      rw [hk] at h
      cases hr : keyValues r with
      | some x => rw [hr] at h; cases h
      | none =>
        obtain ⟨before, after, h1, h2, h3⟩ := ih hr
        refine ⟨s :: before, after, by simp only [List.cons_append]; rw [← h1], h2, fun x hx => ?_⟩
        rcases List.mem_cons.mp hx with rfl | hx
        · exact (keyValue_some (k := kv.1) (v := kv.2) hk).2
        · exact h3 x hx

theorem keyValues_mem {l : List Bytes} : ∀ {kvs : List (Bytes × Bytes)}, keyValues l = some kvs → ∀ k v, (k, v) ∈ kvs → k ++ [61] ++ v ∈ l := by
  induction l with
  | nil => intro kvs h k v hm; cases h; cases hm
  | cons s r ih =>
    intro kvs h k v hm
    unfold keyValues at h
    cases hk : keyValue s with
    | none => rw [hk] at h; cases h
    | some kv =>
      cases hr : keyValues r with
      | none => rw [hk, hr] at h; cases h
      | some x =>
        rw [hk, hr] at h
        cases h
        rcases List.mem_cons.mp hm with he | hm
        · subst he
          rw [← (keyValue_some hk).1]
          exact List.mem_cons_self
        · exact List.mem_cons_of_mem _ (ih hr k v hm)

/-! ## Proofs: the steps of `print` -/

/-- What is said about the parts is what the list has, the first that is bad counting. -/
inductive Tells : List Part → List Bytes → List (Prop × (Bytes → Prop)) → Prop
  | nil : Tells [] [] []
  | skip {d : Part} {m : Bytes} {ds : List Part} {ms : List Bytes} {l : List (Prop × (Bytes → Prop))} : ¬ d.bad → ((∀ e, ¬ d.breaks e) → Tells ds ms l) →
      Tells (d :: ds) (m :: ms) l
  | cons {d : Part} {m : Bytes} {P : Prop} {M : Bytes → Prop} {ds : List Part} {ms : List Bytes} {l : List (Prop × (Bytes → Prop))} : (d.bad ↔ P) → M m → Tells ds ms l →
      Tells (d :: ds) (m :: ms) ((P, M) :: l)

theorem does_none {pa : Attrs} {s : Step} {d : Part} (h : Does pa s d) {j : PrintJob} (hj : j.printerAttrs = pa) (hs : s j = .ok none) : d.bad := by
  obtain ⟨h1, h2⟩ := h j hj
  refine Classical.byContradiction fun hb => ?_
  have he : ∀ e, ¬ d.breaks e := fun e he => by rw [h1 e he] at hs; cases hs
  have := (h2 he).2 hb
  rw [hs] at this
  cases ha : applyAll d.job j.jobAttrs with
  | ok a =>
    rw [ha] at this
    cases hb : applyAll d.op j.opAttrs with
    | ok b => rw [hb] at this; cases this
    | _ => rw [hb] at this; cases this
  | _ => rw [ha] at this; cases this

theorem does_some {pa : Attrs} {s : Step} {d : Part} (h : Does pa s d) {j j' : PrintJob} (hj : j.printerAttrs = pa) (hs : s j = .ok (some j')) :
    ¬ d.bad ∧ (∀ e, ¬ d.breaks e) ∧ j'.printerAttrs = pa := by
  obtain ⟨h1, h2⟩ := h j hj
  have he : ∀ e, ¬ d.breaks e := fun e he => by rw [h1 e he] at hs; cases hs
  have hb : ¬ d.bad := fun hb => by rw [(h2 he).1 hb] at hs; cases hs
  refine ⟨hb, he, ?_⟩
  have := (h2 he).2 hb
  rw [hs] at this
  cases ha : applyAll d.job j.jobAttrs with
  | ok a =>
    rw [ha] at this
    cases hb : applyAll d.op j.opAttrs with
    | ok b => rw [hb] at this; cases this; exact hj
    | _ => rw [hb] at this; cases this
  | _ => rw [ha] at this; cases this

theorem steps_first {pa : Attrs} {ss : List Step} {ds : List Part} (h : DoAll pa ss ds) : ∀ {ms : List Bytes} {l : List (Prop × (Bytes → Prop))} {j : PrintJob},
    Tells ds ms l → j.printerAttrs = pa → runSteps ss j = .ok none → FirstOf l (stepsSay (ss.zip ms) j) := by
  induction h with
  | nil => intro ms l j _ _ h; cases h
  | cons hd hr ih =>
    rename_i s d ss ds
    intro ms l j ht hj h
    rw [runSteps] at h
    cases hs : s j with
    | ok r =>
      rw [hs] at h
      cases r with
      | none =>
        have hb := does_none hd hj hs
        cases ht with
        | skip hn _ => exact absurd hb hn
        | cons hp hm _ =>
          rw [List.zip_cons_cons, stepsSay, hs]
          exact .here (hp.mp hb) hm
      | some j' =>
        obtain ⟨hn, he, hj'⟩ := does_some hd hj hs
        have h : runSteps ss j' = .ok none := h
        cases ht with
        | skip _ ht =>
          rw [List.zip_cons_cons, stepsSay, hs]
          exact ih (ht he) hj' h
        | cons hp hm ht =>
          rw [List.zip_cons_cons, stepsSay, hs]
          exact .later (fun hq => hn (hp.mpr hq)) (ih ht hj' h)
    | _ => rw [hs] at h; cases h

theorem steps_clear {pa : Attrs} {ss : List Step} {ds : List Part} (h : DoAll pa ss ds) : ∀ {ms : List Bytes} {l : List (Prop × (Bytes → Prop))} {j j' : PrintJob},
    Tells ds ms l → j.printerAttrs = pa → runSteps ss j = .ok (some j') → (∀ x ∈ l, ¬ x.1) ∧ j'.printerAttrs = pa := by
  induction h with
  | nil =>
    intro ms l j j' ht hj h
    cases h
    cases ht
    exact ⟨fun x hx => (by cases hx), hj⟩
  | cons hd hr ih =>
    rename_i s d ss ds
    intro ms l j j' ht hj h
    rw [runSteps] at h
    cases hs : s j with
    | ok r =>
      rw [hs] at h
      cases r with
      | none => cases h
      | some j1 =>
        obtain ⟨hn, he, hj1⟩ := does_some hd hj hs
        have h : runSteps ss j1 = .ok (some j') := h
        cases ht with
        | skip _ ht => exact ih (ht he) hj1 h
        | cons hp hm ht =>
          obtain ⟨h1, h2⟩ := ih ht hj1 h
          refine ⟨fun x hx => ?_, h2⟩
          rcases List.mem_cons.mp hx with rfl | hx
          · exact fun hq => hn (hp.mpr hq)
          · exact h1 x hx
    | _ => rw [hs] at h; cases h

theorem complaint_objection {p : Printer} {s : Setting} {attr doc label hint : Bytes} {H : Bytes → Prop} (hn : s.name = attr) (hd : doc = label)
    (hh : ∀ a, KMap.get? p.attrs (attr ++ ascii "-supported") = some a → H hint) : Objection p attr label H (complaint s doc hint p.attrs) := by
  subst hn hd
  unfold complaint Setting.isSupported KMap.has
  have e1 : ascii " is not supported by this printer.\n" = ascii " " ++ ascii "is not supported by this printer.\n" := by decide +kernel
  have e2 : ascii " has an invalid value. \n" = ascii " " ++ ascii "has an invalid value. \n" := by decide +kernel
  have e3 : ascii "\n" = [10] := by decide +kernel
  cases hg : KMap.get? p.attrs (s.name ++ ascii "-supported") with
  | none => exact .inl ⟨hg, by rw [e1]; simp⟩
  | some a => exact .inr ⟨by rw [hg]; simp, hint, hh a hg, by rw [e2, e3]; simp⟩

theorem plain_objection {p : Printer} {s : Setting} {attr label : String} {i : Nat} (hn : s.name = ascii attr) (hd : docOf i = ascii label) :
    Objection p (ascii attr) (ascii label ++ ascii " (ipp: " ++ ascii attr ++ ascii ")") (Choices p (ascii attr)) (plainText i s (supportedStr s p.attrs) p.attrs) := by
  refine complaint_objection hn (by rw [hd, hn]) fun a ha => ?_
  rw [supportedStr, hn, ha]
  exact ⟨a, _, ha, C82_written a.2, rfl⟩

theorem margin_objection {p : Printer} {s : Setting} {attr name : String} (hn : s.name = ascii attr) :
    Objection p (ascii attr) (ascii "-m, --margin <int>") (MarginChoices p (ascii name) (ascii attr))
      (complaint s (docOf 21) (ascii "Valid values for " ++ ascii name ++ ascii " margin are: " ++ supportedStr s p.attrs) p.attrs) := by
  refine complaint_objection hn (by decide +kernel) fun a ha => ?_
  rw [supportedStr, hn, ha]
  exact ⟨a, _, ha, C82_written a.2, rfl⟩

theorem qualityNames_ok {l : List Value} (h : ∀ v ∈ l, v = .int 3 ∨ v = .int 4 ∨ v = .int 5) : ∃ ns, qualityNames l = .ok ns := by
  induction l with
  | nil => exact ⟨[], rfl⟩
  | cons v l ih =>
    obtain ⟨ns, hl⟩ := ih (fun x hx => h x (List.mem_cons_of_mem _ hx))
    rcases h v List.mem_cons_self with rfl | rfl | rfl <;> exact ⟨_ :: ns, by rw [qualityNames, hl]; rfl⟩

theorem quality_told {p : Printer} (h : ∀ e, ¬ OddQualities p e) : ∃ s, qualityHint p.attrs = .ok s := by
  have ht : ∀ x, Supported p (ascii "print-quality") x → x.ty = some .int := fun x hx => Classical.byContradiction fun hn => h _ (.inl ⟨rfl, x, hx, hn⟩)
  obtain ⟨l, hl, hs⟩ := choices_eq (p := p) (s := sPrintQuality) ht
  have hall : ∀ v ∈ l, v = .int 3 ∨ v = .int 4 ∨ v = .int 5 := by
    intro v hv
    have hv := (hs v).mp hv
    have hty := ht v hv
    cases v with
    | int q =>
      refine Classical.byContradiction fun hn => h _ (.inr ⟨rfl, q, hv, ?_, ht⟩)
      simpa [not_or] using hn
    | _ => cases hty
  obtain ⟨ns, hq⟩ := qualityNames_ok hall
  exact ⟨_, by unfold qualityHint; rw [hl, Outcome.bind_ok, hq]; rfl⟩

theorem print_usage (t : Talk) (m : String) (m' : String) (h : ascii m ++ [10, 10] = ascii m') :
    ∃ u, Usage t.name (ascii "print") u ∧ (printError (ascii m) (clientHelpFor t (ascii "print"))).stderr = ascii m' ++ u :=
  ⟨_, help_usage t (by decide +kernel), by rw [printError_text, h]⟩

theorem resolution_objection {p : Printer} {doc : Bytes} {label : String} (h : ∀ e, ¬ OddResolutions p e)
    (hd : doc ++ ascii " (ipp: " ++ sResolution.name ++ ascii ")" = ascii label) :
    Objection p (ascii "printer-resolution") (ascii label) (ResolutionChoices p)
      (complaint sResolution (doc ++ ascii " (ipp: " ++ sResolution.name ++ ascii ")") (resolutionHint p.attrs) p.attrs) := by
  refine complaint_objection rfl hd fun a _ => ?_
  obtain ⟨l, hl, -⟩ := choices_ok (p := p) (s := sResolution) fun x hx => Classical.byContradiction fun hn => h _ ⟨rfl, x, hx, hn⟩
  exact ⟨l, hl, by rw [resolutionHint, hl]⟩

theorem parts_tell (t : Talk) (p : Printer) (o : Options) (v : Option Value) : Tells (parts p o v) (stepTexts t p.attrs) (objections t.name p o) := by
  unfold parts stepTexts objections value side
  refine .cons Iff.rfl (print_usage t _ _ (by decide +kernel)) <| .cons Iff.rfl ?_ <| .cons Iff.rfl (plain_objection rfl (by decide +kernel)) <|
    .cons Iff.rfl ?_ <| .cons Iff.rfl (print_usage t _ _ (by decide +kernel)) <| .skip (fun h => h) fun hr =>
    .cons Iff.rfl (resolution_objection hr (by decide +kernel)) <| .cons Iff.rfl (resolution_objection hr (by decide +kernel)) <|
    .cons Iff.rfl (plain_objection rfl (by decide +kernel)) <| .cons Iff.rfl (plain_objection rfl (by decide +kernel)) <| .skip (fun h => h) fun hq =>
    .cons Iff.rfl ?_ <| .cons Iff.rfl (plain_objection rfl (by decide +kernel)) <|
    .cons Iff.rfl (plain_objection rfl (by decide +kernel)) <| .cons Iff.rfl (plain_objection rfl (by decide +kernel)) <| .cons Iff.rfl (plain_objection rfl (by decide +kernel)) <|
    .cons Iff.rfl (plain_objection rfl (by decide +kernel)) <| .cons Iff.rfl (plain_objection rfl (by decide +kernel)) <| .cons Iff.rfl ?_ <|
    .cons Iff.rfl (margin_objection rfl) <| .cons Iff.rfl (margin_objection rfl) <| .cons Iff.rfl (margin_objection rfl) <| .cons Iff.rfl (margin_objection rfl) <|
    .cons Iff.rfl (plain_objection rfl (by decide +kernel)) <| .cons Iff.rfl (plain_objection rfl (by decide +kernel)) <|
    .cons Iff.rfl (plain_objection rfl (by decide +kernel)) <| .cons Iff.rfl (plain_objection rfl (by decide +kernel)) .nil
  · have e : ascii "--copies <int> (ipp: copies)" = ascii "--copies <int>" ++ ascii " (ipp: " ++ ascii "copies" ++ ascii ")" := by decide +kernel
    rw [e]
    exact plain_objection rfl (by decide +kernel)
  · exact complaint_objection rfl (by decide +kernel) fun a _ => rfl
  · refine complaint_objection rfl (by decide +kernel) fun a _ => ?_
    obtain ⟨s, hs⟩ := quality_told hq
    exact ⟨s, hs, by rw [qualityText, hs]⟩
  · have e : ascii "Argument -m, --margin <int> (ipp: margin-*) is not supported by this printer.\n" =
        ascii "Argument " ++ docOf 21 ++ ascii " (ipp: margin-*) " ++ ascii "is not supported by this printer." ++ [10] := by decide +kernel
    exact e.symm

end Verif.Client
