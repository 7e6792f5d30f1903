import Verif.Convert.Machine
import Verif.Convert.PdfMachine
import Verif.Tools.HelpProps

/-!
# What the converters say: utils/pdf2printable_main.cpp and utils/ppm2pwg_main.cpp (C112)

The texts on the standard output (besides the document) and on the standard error, for the same runs as `pdfMachineMain` and `ppmMachine`. Not modelled: debug
output (`-v`; it goes to the standard error, log.h 7), what the libraries print themselves, and what the run-time system says about an exception that nobody
catches.
-/

set_option linter.unusedVariables false

namespace Verif.Convert

open Tools Tools.Spec Client Client.Spec Raster Pdf

/-- What a tool prints: on the standard output, besides the document, and on the standard error -/
structure Said where
  stdout : Bytes := []
  stderr : Bytes := []
  deriving DecidableEq, Repr

/-- An option with its `_doc` and its `_errorHint` (argget.h 33-34, 172-175) -/
def told (o : Opt) (doc : Bytes) (hint : Bytes := []) : Opt × Bytes := ({ o with errorHint := hint }, doc)

/-- ppm2pwg_main.cpp 50-76, in the order of 81-84 -/
def ppmTold : List (Opt × Bytes) :=
  [told helpOpt (ascii "Print this help text"),
   told verboseOpt (ascii "Be verbose, print headers"),
   told (enumOpt [ascii "-f", ascii "--format"] [ascii "pwg", ascii "urf"]) (ascii "Format to output (pwg/urf)") (ascii "Unrecognized target format"),
   told (intOpt [ascii "--num-pages"]) (ascii "Number of pages to expect (for URF header)"),
   told (textOpt [ascii "--paper-size"]) (ascii "Paper size name in header, e.g.: iso_a4_210x297mm"),
   told (intOpt [ascii "-r", ascii "--resolution"]) (ascii "Resolution (in DPI) to set in header"),
   told (intOpt [ascii "-rx", ascii "--resolution-x"]) (ascii "Resolution (in DPI) to set in header, x-axis"),
   told (intOpt [ascii "-ry", ascii "--resolution-y"]) (ascii "Resolution (in DPI) to set in header, y-axis"),
   told (boolOpt [ascii "-d", ascii "--duplex"]) (ascii "Process for duplex printing"),
   told (boolOpt [ascii "-t", ascii "--tumble"]) (ascii "Process for tumbled duplex output"),
   told backOpt (ascii "Transform backsides (rotate/flip/manual-tumble)"),
   told qualityOpt (ascii "Quality setting in raster header (draft/normal/high)"),
   told positionOpt (ascii "Media position, e.g.: main, top, left, roll-2 etc."),
   told (textOpt [ascii "-mt", ascii "--media-type"]) (ascii "Media type, e.g.: stationery, cardstock etc.")]

/-- pdf2printable_main.cpp 36-85, in the order of 90-95 -/
def pdfTold : List (Opt × Bytes) :=
  [told helpOpt (ascii "Print this help text"),
   told verboseOpt (ascii "Be verbose, print headers and progress"),
   told (enumOpt [ascii "-f", ascii "--format"] [ascii "pdf", ascii "postscript", ascii "ps", ascii "pwg", ascii "urf"])
     (ascii "Format to output (pdf/postscript/pwg/urf)") (ascii "Unrecognized target format"),
   told (textOpt [ascii "-p", ascii "--pages"]) (ascii "What pages to process, e.g.: 1,17-42,69-"),
   told (sizeOpt [ascii "--copies"]) (ascii "Number of copies to output"),
   told (textOpt [ascii "--paper-size"]) (ascii "Paper size to output, e.g.: iso_a4_210x297mm"),
   told (intOpt [ascii "-r", ascii "--resolution"]) (ascii "Resolution (in DPI) for rasterization"),
   told (intOpt [ascii "-rx", ascii "--resolution-x"]) (ascii "Resolution (in DPI) for rasterization, x-axis"),
   told (intOpt [ascii "-ry", ascii "--resolution-y"]) (ascii "Resolution (in DPI) for rasterization, y-axis"),
   told (boolOpt [ascii "-d", ascii "--duplex"]) (ascii "Process for duplex printing"),
   told (boolOpt [ascii "-t", ascii "--tumble"]) (ascii "Process for tumbled duplex output"),
   told backOpt (ascii "Transform backsides (rotate/flip/manual-tumble)"),
   told (enumOpt [ascii "-c", ascii "--color-mode"] [ascii "srgb24", ascii "cmyk32", ascii "gray8", ascii "black8", ascii "gray1", ascii "black1"])
     (ascii "Color mode (srgb24/cmyk32/gray8/black8/gray1/black1)") (ascii "Unrecognized color mode"),
   told qualityOpt (ascii "Quality setting in raster header (draft/normal/high)"),
   told (boolOpt [ascii "-aa", ascii "--antialias"]) (ascii "Enable antialiasing in rasterization"),
   told positionOpt (ascii "Media position, e.g.: main, top, left, roll-2 etc."),
   told (textOpt [ascii "-mt", ascii "--media-type"]) (ascii "Media type, e.g.: stationery, cardstock etc.")]

/-- `HELPTEXT`, ppm2pwg_main.cpp 15 -/
def ppmNote : Bytes := ascii "Use \"-\" as filename for stdin/stdout."

/-- `HELPTEXT`, pdf2printable_main.cpp 13-14 -/
def pdfNote : Bytes := ascii "Options from 'resolution' and onwards only affect raster output formats." ++ [10] ++ ascii "Use \"-\" as filename for stdin/stdout."

/-- `args.argHelp() << std::endl << HELPTEXT << std::endl`, ppm2pwg_main.cpp 90, pdf2printable_main.cpp 101 -/
def helpFor (name : Bytes) (opts : List (Opt × Bytes)) (poss : List Pos) (note : Bytes) : Bytes := argHelp name opts poss ++ [10] ++ note ++ [10]

/-- `print_error`, ppm2pwg_main.cpp 17-20, pdf2printable_main.cpp 16-19 -/
def printError (hint help : Bytes) : Said := { stderr := hint ++ [10] ++ [10] ++ help }

/-! ## ppm2pwg -/

/-- The messages in ppm2pwg_main.cpp 181-234, where the header of a picture is refused (`pnmMode`) -/
def pnmText (format : Format) (magic xs s : Bytes) : Bytes :=
  if magic = ascii "P6" then ascii "Only 255 and 65535 bit-depths supported, got " ++ (readToken s).1
  else if magic = ascii "P5" then ascii "Only 255 and 65535 bit-depths supported, got " ++ (readToken s).1
  else if magic = ascii "P4" then
    match stoul xs with
    | .ok x =>
      if x % 8 ≠ 0 then ascii "Only whole-byte width P4 PBMs supported, got " ++ dec x
      else ascii "URF does not support 1-bit (P4/pbm) color."
    | _ => []
  else ascii "Only P4/P5/P6 (raw) supported, got " ++ magic

/-- The message for the header at the beginning of `s`, ppm2pwg_main.cpp 174-234 -/
def headerText (p : Params) (s : Bytes) : Bytes :=
  let (magic, s) := readToken s
  let s := ignoreComments s
  let (xs, s) := readToken s
  let (_, s) := readToken s
  pnmText p.format magic xs s

/-- What the loop in ppm2pwg_main.cpp 169-253 says, where it goes as `machineLoop` -/
def loopSays (junk : Nat → Bytes) (p : Params) (page : Nat) (s : Bytes) : Bytes :=
  match h : pnmHeader (fun _ _ => 0) p s with
  | .error .refused => headerText p s ++ [10]
  | .error _ => []
  | .ok (q, s1) =>
    match machineSize q with
    | .ok size =>
      if s1.length < size then []
      else
        match machinePage junk q page (s1.take size) with
        | .ok _ => if s1.drop size = [] then [] else loopSays junk q (page + 1) (s1.drop size)
        | _ => []
    | _ => []
termination_by s.length
decreasing_by have := pnmHeader_lt h; simp; omega

/-- `main`, ppm2pwg_main.cpp 34-254: what it says, where `ppmMachine` has how it ends. `name` is the program's name. -/
def ppmSays (junk : Nat → Bytes) (d : Disk) (name : Bytes) (args : List Bytes) : Said :=
  let r := getArgs (ppmTold.map (·.1)) ppmPos args
  let help := helpFor name ppmTold ppmPos ppmNote
  if (r.vals 0).isSome then { stdout := help }
  else if r.success then
    let p := ppmParams r.vals (r.positional.getD 1 [])
    if p.format = .URF ∧ (r.vals 13).isSome ∧ isUrfMediaType p.mediaType = false then printError (ascii "Invalid media type for URF") help
    else
      match d.read (r.positional.getD 0 []) with
      | none => { stderr := ascii "Failed to open input" ++ [10] }
      | some s => { stderr := loopSays junk p 1 s }
  else printError r.errMsg help

/-! ## pdf2printable -/

/-- What the libraries have to say about a failure -/
structure Words where
  /-- `error->message`, pdf2printable.cpp 95 -/
  opening : Bytes
  /-- `cairo_status_to_string(status)`, pdf2printable.cpp 194 -/
  drawing : Bytes

/-- The texts of the errors, pdf2printable.cpp 37, 60, 95-96, 140, 194 -/
def failureText (w : Words) (inFile : Bytes) : Failure → Bytes
  | .asymmetric => ascii "URF must have a symmetric resolution."
  | .open => ascii "Failed to open PDF: " ++ w.opening ++ ascii " (" ++ inFile ++ ascii ")"
  | .format => ascii "Unknown format"
  | .cairo => ascii "Cairo error: " ++ w.drawing
  | .write => ascii "Write error"

/-- The messages in pdf2printable_main.cpp 134-150 and 179-191, where `pdfParams` gives none -/
def paramsText (v : Vals) (outFile : Bytes) : Bytes :=
  match pagesChosen (v 3) (pdfBasic v outFile) with
  | .ok (_, false) => ascii "Malformed page selection"
  | .ok (p, true) =>
    match (paperChosen (v 5)).ret with
    | .ok false => ascii "Malformed paper size"
    | _ =>
      if p.bitsPerColor = 1 ∨ p.isBlack = true then ascii "URF does not support black or 1-bit color modes"
      else ascii "Invalid media type for URF"
  | _ => []

/-- `main`, pdf2printable_main.cpp 21-215: what it says, where `pdfMachineMain` has how it ends -/
def pdfSays (junk : Nat → Bytes) (lum : Luminosity) (lim : Limits) (lib : Bytes → Bool → Library) (w : Words) (name : Bytes) (args : List Bytes) : Said :=
  let r := getArgs (pdfTold.map (·.1)) pdfPos args
  let help := helpFor name pdfTold pdfPos pdfNote
  if (r.vals 0).isSome then { stdout := help }
  else if r.success then
    match pdfParams r.vals (r.positional.getD 1 []) with
    | .ok none => printError (paramsText r.vals (r.positional.getD 1 [])) help
    | .ok (some (paper, p)) =>
      let inFile := r.positional.getD 0 []
      match (pdfMachine junk lum lim (lib inFile (r.vals 14).isSome) (fun _ => true) paper p).result with
      | .ok (some e) => { stderr := ascii "Conversion failed: " ++ failureText w inFile e ++ [10] }
      | _ => {}
    | _ => {}
  else printError r.errMsg help

/-! ## Specification -/

namespace Spec

/-- A text of these lines -/
def lines (ls : List String) : Bytes := ls.flatMap (fun l => ascii l ++ [10])

/-- The help of ppm2pwg, behind the program's name -/
def ppmHelp : Bytes := lines
  [" [options] <in-file> <out-file>",
   "  -h, --help                    Print this help text",
   "  -v, --verbose                 Be verbose, print headers",
   "  -f, --format <choice>         Format to output (pwg/urf)",
   "  --num-pages <int>             Number of pages to expect (for URF header)",
   "  --paper-size <string>         Paper size name in header, e.g.: iso_a4_210x297mm",
   "  -r, --resolution <int>        Resolution (in DPI) to set in header",
   "  -rx, --resolution-x <int>     Resolution (in DPI) to set in header, x-axis",
   "  -ry, --resolution-y <int>     Resolution (in DPI) to set in header, y-axis",
   "  -d, --duplex                  Process for duplex printing",
   "  -t, --tumble                  Process for tumbled duplex output",
   "  -b, --back-xform <choice>     Transform backsides (rotate/flip/manual-tumble)",
   "  -q, --quality <choice>        Quality setting in raster header (draft/normal/high)",
   "  -mp, --media-pos <choice>     Media position, e.g.: main, top, left, roll-2 etc.",
   "  -mt, --media-type <string>    Media type, e.g.: stationery, cardstock etc.",
   "",
   "Use \"-\" as filename for stdin/stdout."]

/-- The help of pdf2printable, behind the program's name -/
def pdfHelp : Bytes := lines
  [" [options] <PDF-file> <out-file>",
   "  -h, --help                    Print this help text",
   "  -v, --verbose                 Be verbose, print headers and progress",
   "  -f, --format <choice>         Format to output (pdf/postscript/pwg/urf)",
   "  -p, --pages <string>          What pages to process, e.g.: 1,17-42,69-",
   "  --copies <int>                Number of copies to output",
   "  --paper-size <string>         Paper size to output, e.g.: iso_a4_210x297mm",
   "  -r, --resolution <int>        Resolution (in DPI) for rasterization",
   "  -rx, --resolution-x <int>     Resolution (in DPI) for rasterization, x-axis",
   "  -ry, --resolution-y <int>     Resolution (in DPI) for rasterization, y-axis",
   "  -d, --duplex                  Process for duplex printing",
   "  -t, --tumble                  Process for tumbled duplex output",
   "  -b, --back-xform <choice>     Transform backsides (rotate/flip/manual-tumble)",
   "  -c, --color-mode <choice>     Color mode (srgb24/cmyk32/gray8/black8/gray1/black1)",
   "  -q, --quality <choice>        Quality setting in raster header (draft/normal/high)",
   "  -aa, --antialias              Enable antialiasing in rasterization",
   "  -mp, --media-pos <choice>     Media position, e.g.: main, top, left, roll-2 etc.",
   "  -mt, --media-type <string>    Media type, e.g.: stationery, cardstock etc.",
   "",
   "Options from 'resolution' and onwards only affect raster output formats.",
   "Use \"-\" as filename for stdin/stdout."]

/-- The words between slashes -/
def slashed : Bytes → List Bytes
  | [] => [[]]
  | b :: bs => if b = 47 then [] :: slashed bs else match slashed bs with
    | [] => [[b]]
    | w :: ws => (b :: w) :: ws

/-- The choices that a text lists, in parentheses and with slashes between them -/
def listed (doc : Bytes) : List Bytes :=
  let inner := ((doc.dropWhile (· ≠ 40)).drop 1).takeWhile (· ≠ 41)
  if 47 ∈ inner then slashed inner else []

/-- A request for help comes up before anything that is wrong, and before the names of the files. -/
def AsksHelp (opts : List Opt) (args : List Bytes) : Prop :=
  ∃ (uses : List Use) (rest : List Bytes), args = (uses.map (·.words)).flatten ++ rest ∧ (∀ u ∈ uses, IsUse opts u) ∧
    ∃ u ∈ uses, u.words = [ascii "-h"] ∨ u.words = [ascii "--help"]

/-- The words at the beginning of a picture: its kind, its width, and what comes after its height -/
def HeaderWords (s kind width rest : Bytes) : Prop :=
  ∃ t, t = ignoreComments (readToken s).2 ∧ kind = (readToken s).1 ∧ width = (readToken t).1 ∧ rest = (readToken (readToken t).2).2

/-- What is wrong with the beginning of a picture, and what is said about it -/
inductive PictureFault (f : Format) (s : Bytes) : Bytes → Prop
  | kind {k x r : Bytes} : HeaderWords s k x r → k ≠ ascii "P4" → k ≠ ascii "P5" → k ≠ ascii "P6" →
      PictureFault f s (ascii "Only P4/P5/P6 (raw) supported, got " ++ k)
  | depth {k x r : Bytes} : HeaderWords s k x r → (k = ascii "P5" ∨ k = ascii "P6") → (readToken r).1 ≠ ascii "255" → (readToken r).1 ≠ ascii "65535" →
      PictureFault f s (ascii "Only 255 and 65535 bit-depths supported, got " ++ (readToken r).1)
  | width {x r : Bytes} {n : Nat} : HeaderWords s (ascii "P4") x r → stoul x = .ok n → ¬ 8 ∣ n →
      PictureFault f s (ascii "Only whole-byte width P4 PBMs supported, got " ++ dec n)
  | bits {x r : Bytes} : HeaderWords s (ascii "P4") x r → f = .URF → PictureFault f s (ascii "URF does not support 1-bit (P4/pbm) color.")

/-- What ppm2pwg says on the standard error, whether it has begun with the output, and why -/
inductive PpmComplaint (d : Disk) (name : Bytes) (args : List Bytes) : Bool → Bytes → Prop
  | usage {uses : List Use} {rest : List Bytes} {m : Bytes} : args = (uses.map (·.words)).flatten ++ rest → (∀ u ∈ uses, IsUse ppmOpts u) →
      Fault (ppmTold.map (·.1)) ppmPos rest m → PpmComplaint d name args false (m ++ ascii "\n\nUsage: " ++ name ++ ppmHelp)
  | media {uses : List Use} {inFile outFile : Bytes} : Accounts ppmOpts ppmPos args uses [inFile, outFile] → PnmRefused uses outFile →
      PpmComplaint d name args false (ascii "Invalid media type for URF\n\nUsage: " ++ name ++ ppmHelp)
  | input {uses : List Use} {inFile outFile : Bytes} : Accounts ppmOpts ppmPos args uses [inFile, outFile] → d.read inFile = none →
      PpmComplaint d name args false (ascii "Failed to open input\n")
  | picture {uses : List Use} {inFile outFile : Bytes} {before s line : Bytes} {f : Format} : Accounts ppmOpts ppmPos args uses [inFile, outFile] →
      d.read inFile = some (before ++ s) → PnmFormat uses outFile f → PictureFault f s line → PpmComplaint d name args true (line ++ [10])

/-- What pdf2printable refuses, and what it says about it -/
inductive PdfRefusal (uses : List Use) (outFile : Bytes) : Bytes → Prop
  | pages {s : Bytes} : word uses [ascii "-p", ascii "--pages"] = some s → (∀ rs, ¬ DenotesRanges s rs) → PdfRefusal uses outFile (ascii "Malformed page selection")
  | paper {s : Bytes} : word uses [ascii "--paper-size"] = some s → (¬ ∃ wi wf hi hf unit, PaperName s wi wf hi hf unit) →
      PdfRefusal uses outFile (ascii "Malformed paper size")
  | color {m : ColorMode} : PdfFormat uses outFile .URF → PdfColor uses m → (m = .Black8 ∨ m = .Gray1 ∨ m = .Black1) →
      PdfRefusal uses outFile (ascii "URF does not support black or 1-bit color modes")
  | media {t : Bytes} : PdfFormat uses outFile .URF → word uses [ascii "-mt", ascii "--media-type"] = some t →
      (∀ s n, (s, n) ∈ Raster.Spec.urfMedia → t ≠ ascii s) → PdfRefusal uses outFile (ascii "Invalid media type for URF")

/-- There is nothing to draw on: the resolution is 0, or there is no image of the size of the page. -/
def NoSurface (lim : Limits) (paper : Paper) (p : Params) : Prop :=
  p.hwResW = 0 ∨ p.hwResH = 0 ∨ ((p.format = .PWG ∨ p.format = .URF) ∧
    ∃ x y, pixelsOf paper.units paper.w p.hwResW = .ok x ∧ pixelsOf paper.units paper.h p.hwResH = .ok y ∧
      (intOf x < 0 ∨ lim.limit < intOf x ∨ intOf y < 0 ∨ lim.limit < intOf y))

/-- Why a conversion fails, and what is said about it. (That the function for writing fails, or that the format is none, does not come up.) -/
inductive ConversionFault (lim : Limits) (doc : Library) (w : Words) (inFile : Bytes) (paper : Paper) (p : Params) : Bytes → Prop
  | resolution : p.format = .URF → p.hwResW ≠ p.hwResH → ConversionFault lim doc w inFile paper p (ascii "URF must have a symmetric resolution.")
  | opening : doc.pages = none → ConversionFault lim doc w inFile paper p (ascii "Failed to open PDF: " ++ w.opening ++ ascii " (" ++ inFile ++ ascii ")")
  | drawing : doc.pages ≠ none → (NoSurface lim paper p ∨ ∃ drawn, doc.failed drawn = true) → ConversionFault lim doc w inFile paper p (ascii "Cairo error: " ++ w.drawing)

/-- What pdf2printable says on the standard error, whether it has begun with the output, and why -/
inductive PdfComplaint (lim : Limits) (lib : Bytes → Bool → Library) (w : Words) (name : Bytes) (args : List Bytes) : Bool → Bytes → Prop
  | usage {uses : List Use} {rest : List Bytes} {m : Bytes} : args = (uses.map (·.words)).flatten ++ rest → (∀ u ∈ uses, IsUse pdfOpts u) →
      Fault (pdfTold.map (·.1)) pdfPos rest m → PdfComplaint lim lib w name args false (m ++ ascii "\n\nUsage: " ++ name ++ pdfHelp)
  | refused {uses : List Use} {inFile outFile m : Bytes} : Accounts pdfOpts pdfPos args uses [inFile, outFile] → PdfRefusal uses outFile m →
      PdfComplaint lim lib w name args false (m ++ ascii "\n\nUsage: " ++ name ++ pdfHelp)
  | conversion {uses : List Use} {inFile outFile m : Bytes} {paper : Paper} {p : Params} : Accounts pdfOpts pdfPos args uses [inFile, outFile] →
      PdfJob uses outFile paper p → ConversionFault lim (lib inFile (lastUse uses [ascii "-aa", ascii "--antialias"]).isSome) w inFile paper p m →
      PdfComplaint lim lib w name args true (ascii "Conversion failed: " ++ m ++ [10])

end Spec

open Verif.Convert.Spec

/-! ## Proofs: the texts make no difference to what is read -/

/-- An option without its text for bad values -/
def bare (o : Opt) : Opt := { o with errorHint := [] }

theorem first_bare (opts : List Opt) (k : Nat) (name : Bytes) :
    first (opts.map bare) k name = (first opts k name).map (fun x => (x.1, bare x.2)) := by
  induction opts generalizing k with
  | nil => rfl
  | cons o os ih =>
    simp only [List.map_cons, first]
    rw [ih]
    show (if name ∈ o.names then _ else _) = _
    split <;> rfl

/-- What two ways through the options have in common when only their messages differ -/
def SameLoop : Loop → Loop → Prop
  | .failed _ v, .failed _ v' => v = v'
  | .done r v, .done r' v' => r = r' ∧ v = v'
  | _, _ => False

theorem options_bare (opts : List Opt) (args : List Bytes) (vals : Vals) : SameLoop (options (opts.map bare) args vals) (options opts args vals) := by
  fun_induction options opts args vals with
  | case1 vals => exact ⟨rfl, rfl⟩
  | case2 name rest vals hf =>
    conv => arg 1; unfold options
    rw [first_bare, hf]; exact ⟨rfl, rfl⟩
  | case3 name rest vals i o hf ht ih =>
    conv => arg 1; unfold options
    rw [first_bare, hf]
    simp only [Option.map_some, show (bare o).takes = none from ht]
    exact ih
  | case4 name vals i o hf conv ht =>
    conv => arg 1; unfold options
    rw [first_bare, hf]
    simp only [Option.map_some, show (bare o).takes = some conv from ht]
    rfl
  | case5 name vals i o hf conv ht v rest x hx ih =>
    conv => arg 1; unfold options
    rw [first_bare, hf]
    simp only [Option.map_some, show (bare o).takes = some conv from ht, hx]
    exact ih
  | case6 name vals i o hf conv ht v rest hx =>
    conv => arg 1; unfold options
    rw [first_bare, hf]
    simp only [Option.map_some, show (bare o).takes = some conv from ht, hx]
    rfl

theorem getArgs_bare (opts : List Opt) (poss : List Pos) (args : List Bytes) :
    (getArgs (opts.map bare) poss args).success = (getArgs opts poss args).success ∧
    (getArgs (opts.map bare) poss args).vals = (getArgs opts poss args).vals ∧
    (getArgs (opts.map bare) poss args).positional = (getArgs opts poss args).positional := by
  have h := options_bare opts args (fun _ => none)
  unfold getArgs
  cases h1 : options (opts.map bare) args (fun _ => none) <;> cases h2 : options opts args (fun _ => none) <;> rw [h1, h2] at h
  · cases h; exact ⟨rfl, rfl, rfl⟩
  · cases h
  · cases h
  · obtain ⟨rfl, rfl⟩ := h; exact ⟨rfl, rfl, rfl⟩

theorem isUse_bare (opts : List Opt) (u : Use) : IsUse (opts.map bare) u ↔ IsUse opts u := by
  unfold IsUse
  simp only [List.getElem?_map]
  constructor
  · rintro ⟨o, name, h1, h2, h3, h4⟩
    obtain ⟨o', h5, rfl⟩ := Option.map_eq_some_iff.mp h1
    refine ⟨o', name, h5, h2, ?_, h4⟩
    intro j o'' hj ho
    exact h3 j (bare o'') hj (by rw [ho]; rfl)
  · rintro ⟨o, name, h1, h2, h3, h4⟩
    refine ⟨bare o, name, by rw [h1]; rfl, h2, ?_, h4⟩
    intro j o'' hj ho
    obtain ⟨o', h5, rfl⟩ := Option.map_eq_some_iff.mp ho
    exact h3 j o' hj h5

theorem ppm_bare : (ppmTold.map (·.1)).map bare = ppmOpts := rfl

theorem pdf_bare : (pdfTold.map (·.1)).map bare = pdfOpts := rfl

/-! ## Proofs: requests for help -/

theorem getArgs_loop (opts : List Opt) (poss : List Pos) (args : List Bytes) :
    (getArgs opts poss args).vals = loopVals (options opts args (fun _ => none)) := by
  unfold getArgs
  cases options opts args (fun _ => none) with
  | failed e v => rfl
  | done r v =>
    simp only
    split
    · rfl
    · split <;> rfl

theorem options_uses (opts : List Opt) (args : List Bytes) (vals : Vals) :
    ∃ (uses : List Use) (rest : List Bytes), args = (uses.map (·.words)).flatten ++ rest ∧ (∀ u ∈ uses, IsUse opts u) ∧
      loopVals (options opts args vals) = after vals uses := by
  fun_induction options opts args vals with
  | case1 vals => exact ⟨[], [], rfl, nofun, rfl⟩
  | case2 name rest vals hf => exact ⟨[], _, rfl, nofun, rfl⟩
  | case3 name rest2 vals i o hf ht ih =>
    obtain ⟨uses, rest, h1, h2, h3⟩ := ih
    obtain ⟨-, g1, g2, g3⟩ := first_some hf
    refine ⟨⟨i, [name], .flag⟩ :: uses, rest, by rw [h1]; rfl, ?_, h3⟩
    intro u hu
    rcases List.mem_cons.1 hu with rfl | hu
    · exact ⟨o, name, g1, g2, g3, .inl ⟨ht, rfl, rfl⟩⟩
    · exact h2 u hu
  | case4 name vals i o hf conv ht => exact ⟨[], _, rfl, nofun, rfl⟩
  | case5 name vals i o hf conv ht v rest2 x hx ih =>
    obtain ⟨uses, rest, h1, h2, h3⟩ := ih
    obtain ⟨-, g1, g2, g3⟩ := first_some hf
    refine ⟨⟨i, [name, v], x⟩ :: uses, rest, by rw [h1]; rfl, ?_, h3⟩
    intro u hu
    rcases List.mem_cons.1 hu with rfl | hu
    · exact ⟨o, name, g1, g2, g3, .inr ⟨conv, v, ht, rfl, hx⟩⟩
    · exact h2 u hu
  | case6 name vals i o hf conv ht v rest2 hx => exact ⟨[], _, rfl, nofun, rfl⟩

theorem options_prefix {opts : List Opt} (more : List Bytes) (uses : List Use) :
    ∀ vals, (∀ u ∈ uses, IsUse opts u) → options opts ((uses.map (·.words)).flatten ++ more) vals = options opts more (after vals uses) := by
  induction uses with
  | nil => intro vals _; rfl
  | cons u us ih =>
    intro vals hu
    have ih := fun vals => ih vals (fun w hw => hu w (List.mem_cons_of_mem _ hw))
    obtain ⟨o, name, h1, h2, h3, h4⟩ := hu u List.mem_cons_self
    have hf := first_eq (k := 0) h1 h2 h3
    rw [Nat.add_zero] at hf
    rcases h4 with ⟨ht, hw, hv⟩ | ⟨conv, w, ht, hw, hv⟩
    · simp only [List.map_cons, List.flatten_cons, hw, List.cons_append, List.nil_append]
      conv => lhs; unfold options
      rw [hf]; simp only [ht]
      rw [ih, ← hv]; rfl
    · simp only [List.map_cons, List.flatten_cons, hw, List.cons_append, List.nil_append]
      conv => lhs; unfold options
      rw [hf]; simp only [ht, hv]
      rw [ih]; rfl

theorem lastValue_isSome (uses : List Use) (i : Nat) : (lastValue uses i).isSome = true ↔ ∃ u ∈ uses, u.option = i := by
  unfold lastValue
  rw [List.getLast?_isSome]
  simp

theorem set_iff (opts : List Opt) (poss : List Pos) (args : List Bytes) (i : Nat) :
    ((getArgs opts poss args).vals i).isSome = true ↔
      ∃ (uses : List Use) (rest : List Bytes), args = (uses.map (·.words)).flatten ++ rest ∧ (∀ u ∈ uses, IsUse opts u) ∧ ∃ u ∈ uses, u.option = i := by
  rw [getArgs_loop]
  constructor
  · intro h
    obtain ⟨uses, rest, h1, h2, h3⟩ := options_uses opts args (fun _ => none)
    refine ⟨uses, rest, h1, h2, ?_⟩
    rw [h3, after_last, Option.or_none] at h
    exact (lastValue_isSome uses i).mp h
  · rintro ⟨uses, rest, rfl, h2, h3⟩
    rw [options_prefix rest uses _ h2]
    obtain ⟨uses', rest', -, -, h4⟩ := options_uses opts rest (after (fun _ => none) uses)
    rw [h4, after_last, after_last, Option.or_none]
    have := (lastValue_isSome uses i).mpr h3
    cases lastValue uses' i with
    | some v => rfl
    | none => simpa using this

theorem asksHelp_iff {opts : List Opt} (h : opts[0]? = some helpOpt) (poss : List Pos) (args : List Bytes) :
    ((getArgs opts poss args).vals 0).isSome = true ↔ AsksHelp opts args := by
  have hn : helpOpt.names = [ascii "-h", ascii "--help"] := rfl
  rw [set_iff]
  constructor
  · rintro ⟨uses, rest, h1, h2, u, hu, h0⟩
    refine ⟨uses, rest, h1, h2, u, hu, ?_⟩
    obtain ⟨o, name, g1, g2, -, g4⟩ := h2 u hu
    rw [h0, h] at g1
    cases g1
    rw [hn] at g2
    rcases g4 with ⟨-, g5, -⟩ | ⟨conv, w, g5, -⟩
    · simp only [List.mem_cons, List.not_mem_nil, or_false] at g2
      rcases g2 with rfl | rfl
      · exact .inl g5
      · exact .inr g5
    · cases g5
  · rintro ⟨uses, rest, h1, h2, u, hu, h0⟩
    refine ⟨uses, rest, h1, h2, u, hu, ?_⟩
    obtain ⟨o, name, g1, g2, g3, g4⟩ := h2 u hu
    have hname : name ∈ helpOpt.names := by
      rw [hn]
      rcases g4 with ⟨-, g5, -⟩ | ⟨conv, w, -, g5, -⟩ <;> rw [g5] at h0 <;> simp at h0 ⊢
      exact h0
    rcases Nat.eq_zero_or_pos u.option with h5 | h5
    · exact h5
    · exact absurd hname (g3 0 helpOpt h5 h)

/-! ## Proofs: the help -/

set_option maxRecDepth 100000 in
theorem ppmHelp_eq : argHelpRest ppmTold ppmPos ++ [10] ++ ppmNote ++ [10] = ppmHelp := by decide +kernel

set_option maxRecDepth 100000 in
theorem pdfHelp_eq : argHelpRest pdfTold pdfPos ++ [10] ++ pdfNote ++ [10] = pdfHelp := by decide +kernel

theorem helpFor_ppm (name : Bytes) : helpFor name ppmTold ppmPos ppmNote = ascii "Usage: " ++ name ++ ppmHelp := by
  rw [← ppmHelp_eq]; simp only [helpFor, argHelp, List.append_assoc]

theorem helpFor_pdf (name : Bytes) : helpFor name pdfTold pdfPos pdfNote = ascii "Usage: " ++ name ++ pdfHelp := by
  rw [← pdfHelp_eq]; simp only [helpFor, argHelp, List.append_assoc]

theorem printError_eq (m name rest : Bytes) : (printError m (ascii "Usage: " ++ name ++ rest)).stderr = m ++ ascii "\n\nUsage: " ++ name ++ rest := by
  have : ascii "\n\nUsage: " = [10] ++ ([10] ++ ascii "Usage: ") := by decide +kernel
  rw [this]
  simp only [printError, List.append_assoc]

/-! ## Proofs: ppm2pwg -/

theorem stoul_cases (s : Bytes) : (∃ n, stoul s = .ok n) ∨ ∃ e, stoul s = .throws e := by
  unfold stoul
  simp only
  generalize List.takeWhile isDigit _ = ds
  by_cases h1 : ds = []
  · rw [if_pos h1]; exact .inr ⟨_, rfl⟩
  · rw [if_neg h1]
    by_cases h2 : digitsVal ds > sizeMax
    · rw [if_pos h2]; exact .inr ⟨_, rfl⟩
    · rw [if_neg h2]; exact .inl ⟨_, rfl⟩

theorem header_fault {pt : Nat → Nat → Nat} {p : Params} {s : Bytes} (h : pnmHeader pt p s = .error .refused) : PictureFault p.format s (headerText p s) := by
  unfold pnmHeader at h
  simp only at h
  unfold headerText
  simp only
  generalize hk : (readToken s).1 = k at *
  generalize ht : ignoreComments (readToken s).2 = t at *
  generalize hx : (readToken t).1 = x at *
  generalize hy : (readToken (readToken t).2).1 = y at *
  generalize hr : (readToken (readToken t).2).2 = r at *
  have hw : HeaderWords s k x r := ⟨t, ht.symm, hk.symm, hx.symm, hr.symm⟩
  cases hm : pnmMode p.format k x r with
  | ok v =>
    rw [hm] at h
    simp only at h
    rcases stoul_cases x with ⟨n, h1⟩ | ⟨e, h1⟩ <;> rcases stoul_cases y with ⟨n', h2⟩ | ⟨e', h2⟩ <;> rw [h1, h2] at h <;> cases h
  | error e =>
    rw [hm] at h
    cases h
    unfold pnmMode at hm
    unfold pnmText
    split at hm
    · rename_i h6
      rw [if_pos h6]
      simp only at hm
      split at hm
      · cases hm
      · rename_i g1
        split at hm
        · cases hm
        · rename_i g2
          exact .depth hw (.inr h6) g1 g2
    · rename_i h6
      rw [if_neg h6]
      split at hm
      · rename_i h5
        rw [if_pos h5]
        simp only at hm
        split at hm
        · cases hm
        · rename_i g1
          split at hm
          · cases hm
          · rename_i g2
            exact .depth hw (.inl h5) g1 g2
      · rename_i h5
        rw [if_neg h5]
        split at hm
        · rename_i h4
          rw [if_pos h4]
          subst h4
          rcases stoul_cases x with ⟨n, h1⟩ | ⟨e, h1⟩
          · rw [h1] at hm ⊢
            simp only at hm ⊢
            split at hm
            · rename_i g1
              rw [if_pos g1]
              exact .width hw h1 (fun hd => g1 (Nat.mod_eq_zero_of_dvd hd))
            · rename_i g1
              rw [if_neg g1]
              split at hm
              · rename_i g2; exact .bits hw g2
              · cases hm
          · rw [h1] at hm; cases hm
        · rename_i h4
          rw [if_neg h4]
          exact .kind hw h4 h5 h6

theorem header_format {pt : Nat → Nat → Nat} {p q : Params} {s s' : Bytes} (h : pnmHeader pt p s = .ok (q, s')) : q.format = p.format ∧ s' <:+ s := by
  have hws : ∀ (f : UInt8 → Bool) (l : Bytes), l.dropWhile f <:+ l := fun f l => List.dropWhile_suffix f
  have tok : ∀ l, (readToken l).2 <:+ l := fun l => (hws _ _).trans (hws _ _)
  have lin : ∀ l, dropLine l <:+ l := by
    intro l
    induction l with
    | nil => exact List.suffix_refl _
    | cons b l ih =>
      unfold dropLine
      split
      · exact List.suffix_cons _ _
      · exact ih.trans (List.suffix_cons _ _)
  have com : ∀ l, dropComments l <:+ l := by
    intro l
    fun_induction dropComments l with
    | case1 => exact List.suffix_refl _
    | case2 r ih => exact (ih.trans (lin r)).trans (List.suffix_cons _ _)
    | case3 => exact List.suffix_refl _
  have ign : ∀ l, ignoreComments l <:+ l := by
    intro l
    unfold ignoreComments
    split
    · exact (com _).trans (List.drop_suffix _ _)
    · exact com _
  have mode : ∀ f k x l m l', pnmMode f k x l = .ok (m, l') → l' <:+ l := by
    intro f k x l m l' hm
    unfold pnmMode at hm
    split at hm
    · simp only at hm
      split at hm
      · cases hm; exact tok _
      · split at hm
        · cases hm; exact tok _
        · cases hm
    · split at hm
      · simp only at hm
        split at hm
        · cases hm; exact tok _
        · split at hm
          · cases hm; exact tok _
          · cases hm
      · split at hm
        · split at hm
          · split at hm
            · cases hm
            · split at hm
              · cases hm
              · cases hm; exact List.suffix_refl _
          all_goals cases hm
        · cases hm
  unfold pnmHeader at h
  simp only at h
  split at h
  · cases h
  · rename_i m l hm
    split at h
    · cases h
      refine ⟨rfl, (ign _).trans ((mode _ _ _ _ _ _ hm).trans ((tok _).trans ((tok _).trans ((ign _).trans (tok _)))))⟩
    all_goals cases h

theorem loopSays_error {junk : Nat → Bytes} {p : Params} {page : Nat} {s : Bytes} {e : PnmEnd} (h : pnmHeader (fun _ _ => 0) p s = .error e) :
    loopSays junk p page s = match e with | .refused => headerText p s ++ [10] | _ => [] := by
  rw [loopSays.eq_def]
  split
  · rename_i he; rw [h] at he; cases he; rfl
  · rename_i hne he
    rw [h] at he
    cases he
    cases e with
    | refused => exact absurd rfl hne
    | done => rfl
    | threw e => rfl
  · rename_i he; rw [h] at he; cases he

theorem loopSays_ok {junk : Nat → Bytes} {p q : Params} {page : Nat} {s s1 : Bytes} (h : pnmHeader (fun _ _ => 0) p s = .ok (q, s1)) :
    loopSays junk p page s = match machineSize q with
      | .ok size =>
        if s1.length < size then []
        else
          match machinePage junk q page (s1.take size) with
          | .ok _ => if s1.drop size = [] then [] else loopSays junk q (page + 1) (s1.drop size)
          | _ => []
      | _ => [] := by
  conv => lhs; rw [loopSays.eq_def]
  split
  · rename_i he; rw [h] at he; cases he
  · rename_i he; rw [h] at he; cases he
  · rename_i he; rw [h] at he; cases he; rfl

theorem machineLoop_error {junk : Nat → Bytes} {p : Params} {page : Nat} {s : Bytes} {e : PnmEnd} (h : pnmHeader (fun _ _ => 0) p s = .error e) :
    machineLoop junk p page s = encodeUntil [] e := by
  rw [machineLoop.eq_def]
  split
  · rename_i he; rw [h] at he; cases he; rfl
  · rename_i he; rw [h] at he; cases he

theorem machineLoop_ok {junk : Nat → Bytes} {p q : Params} {page : Nat} {s s1 : Bytes} (h : pnmHeader (fun _ _ => 0) p s = .ok (q, s1)) :
    machineLoop junk p page s = match machineSize q with
      | .ok size =>
        if s1.length < size then ([], .throws .outOfRange)
        else
          match machinePage junk q page (s1.take size) with
          | .ok enc =>
            if s1.drop size = [] then (enc, .ok 0)
            else
              let r := machineLoop junk q (page + 1) (s1.drop size)
              (enc ++ r.1, r.2)
          | .throws e => ([], .throws e)
          | .ub => ([], .ub)
          | .hang => ([], .hang)
      | .throws e => ([], .throws e)
      | .ub => ([], .ub)
      | .hang => ([], .hang) := by
  conv => lhs; rw [machineLoop.eq_def]
  split
  · rename_i he; rw [h] at he; cases he
  · rename_i he; rw [h] at he; cases he; rfl

theorem loop_says (junk : Nat → Bytes) : ∀ (n : Nat) (p : Params) (page : Nat) (s : Bytes), s.length = n →
    ((machineLoop junk p page s).2 = .ok 1 ∧ ∃ before s' line, s = before ++ s' ∧ PictureFault p.format s' line ∧ loopSays junk p page s = line ++ [10]) ∨
    ((machineLoop junk p page s).2 ≠ .ok 1 ∧ loopSays junk p page s = []) := by
  intro n
  induction n using Nat.strongRecOn with
  | _ n ih =>
    intro p page s hn
    cases he : pnmHeader (fun _ _ => 0) p s with
    | error e =>
      rw [machineLoop_error he, loopSays_error he]
      cases e with
      | refused => exact .inl ⟨rfl, [], s, headerText p s, rfl, header_fault he, rfl⟩
      | done => exact .inr ⟨(fun h => by cases h), rfl⟩
      | threw e => exact .inr ⟨(fun h => by cases h), rfl⟩
    | ok v =>
      obtain ⟨q, s1⟩ := v
      rw [machineLoop_ok he, loopSays_ok he]
      obtain ⟨hf, hs⟩ := header_format he
      cases hz : machineSize q with
    | ok size =>
      simp only
      by_cases hl : s1.length < size
      · rw [if_pos hl, if_pos hl]
        exact .inr ⟨(fun h => by cases h), rfl⟩
      · rw [if_neg hl, if_neg hl]
        cases hp : machinePage junk q page (s1.take size) with
        | ok enc =>
          simp only
          by_cases hd : s1.drop size = []
          · rw [if_pos hd, if_pos hd]
            exact .inr ⟨(fun h => by cases h), rfl⟩
          · rw [if_neg hd, if_neg hd]
            have hlt := pnmHeader_lt he
            rcases ih (s1.drop size).length (by simp; omega) q (page + 1) (s1.drop size) rfl with ⟨h1, before, s', line, h2, h3, h4⟩ | ⟨h1, h2⟩
            · obtain ⟨pre, hpre⟩ := hs
              refine .inl ⟨h1, pre ++ s1.take size ++ before, s', line, ?_, hf ▸ h3, h4⟩
              rw [List.append_assoc, List.append_assoc, ← h2, List.take_append_drop, hpre]
            · exact .inr ⟨h1, h2⟩
        | throws e => exact .inr ⟨(fun h => by cases h), rfl⟩
        | ub => exact .inr ⟨(fun h => by cases h), rfl⟩
        | hang => exact .inr ⟨(fun h => by cases h), rfl⟩
    | throws e => exact .inr ⟨(fun h => by cases h), rfl⟩
    | ub => exact .inr ⟨(fun h => by cases h), rfl⟩
    | hang => exact .inr ⟨(fun h => by cases h), rfl⟩

/-- A command line with two positional arguments that is understood -/
theorem twoNames_of {opts : List Opt} {a b : Pos} (ha : a.optional = false) (hb : b.optional = false) {args : List Bytes}
    (h : (getArgs opts [a, b] args).success = true) :
    ∃ uses inFile outFile, Accounts opts [a, b] args uses [inFile, outFile] ∧ (getArgs opts [a, b] args).vals = lastValue uses ∧
      (getArgs opts [a, b] args).positional = [inFile, outFile] := by
  obtain ⟨uses, pos, h1, -⟩ := C45_sound h
  obtain ⟨-, h2, h3⟩ := C45_complete h1
  have l1 := h1.notMore
  have l2 := h1.enough 1 b rfl
  match pos, h1, h3, l1, l2 with
  | [x, y], h1, h3, _, _ => exact ⟨uses, x, y, h1, funext h2, h3⟩
  | [], _, _, _, l2 => rw [l2 (by simp)] at hb; cases hb
  | [x], _, _, _, l2 => rw [l2 (by simp)] at hb; cases hb
  | _ :: _ :: _ :: _, _, _, l1, _ => simp at l1

/-- C112, ppm2pwg: a request for help is answered on the standard output, with exit code 0, and nothing else is done. Otherwise nothing but the document goes to
the standard output, and on the standard error there is something exactly if the exit code is 1: the reason. -/
theorem C112_ppm (junk : Nat → Bytes) (d : Disk) (name : Bytes) (args : List Bytes) :
    (AsksHelp ppmOpts args ∧ ppmMachine junk d args = { out := .ok 0, file := none } ∧
      ppmSays junk d name args = { stdout := ascii "Usage: " ++ name ++ ppmHelp, stderr := [] }) ∨
    (¬ AsksHelp ppmOpts args ∧ (ppmSays junk d name args).stdout = [] ∧
      (((ppmMachine junk d args).out = .ok 1 ∧ PpmComplaint d name args (ppmMachine junk d args).file.isSome (ppmSays junk d name args).stderr) ∨
       ((ppmMachine junk d args).out ≠ .ok 1 ∧ (ppmSays junk d name args).stderr = []))) := by
  obtain ⟨e1, e2, e3⟩ := getArgs_bare (ppmTold.map (·.1)) ppmPos args
  rw [ppm_bare] at e1 e2 e3
  have hh := asksHelp_iff (opts := ppmOpts) rfl ppmPos args
  unfold ppmMachine ppmWith ppmSays
  simp only [helpFor_ppm, ← e1, ← e2, ← e3]
  cases h0 : ((getArgs ppmOpts ppmPos args).vals 0).isSome with
  | true => exact .inl ⟨hh.mp h0, by simp, by simp⟩
  | false =>
    refine .inr ⟨fun h => (by rw [hh.mpr h] at h0; cases h0), ?_⟩
    simp only [Bool.false_eq_true, if_false]
    cases hs : (getArgs ppmOpts ppmPos args).success with
    | false =>
      simp only [Bool.false_eq_true, if_false]
      refine ⟨rfl, .inl ⟨trivial, ?_⟩⟩
      rw [printError_eq]
      rw [hs] at e1
      obtain ⟨uses, rest, h1, h2, h3⟩ := C95_message e1.symm
      exact .usage h1 (fun u hu => (isUse_bare _ u).mpr (h2 u hu)) h3
    | true =>
      simp only [if_true]
      obtain ⟨uses, inFile, outFile, h1, h2, h3⟩ := twoNames_of (opts := ppmOpts) rfl rfl hs
      change Accounts ppmOpts ppmPos args uses [inFile, outFile] at h1
      change (getArgs ppmOpts ppmPos args).vals = _ at h2
      change (getArgs ppmOpts ppmPos args).positional = _ at h3
      simp only [h2, h3, List.getD_cons_succ, List.getD_cons_zero]
      by_cases hr : (ppmParams (lastValue uses) outFile).format = .URF ∧ (lastValue uses 13).isSome = true ∧
        isUrfMediaType (ppmParams (lastValue uses) outFile).mediaType = false
      · rw [if_pos hr, if_pos hr]
        refine ⟨rfl, .inl ⟨rfl, ?_⟩⟩
        rw [printError_eq]
        have hm := PpmComplaint.media (d := d) (name := name) h1 ((refused_iff h1.uses outFile).mp hr)
        have : ascii "Invalid media type for URF\n\nUsage: " = ascii "Invalid media type for URF" ++ ascii "\n\nUsage: " := by decide +kernel
        rw [this] at hm
        exact hm
      · rw [if_neg hr, if_neg hr]
        cases hd : d.read inFile with
        | none => exact ⟨rfl, .inl ⟨rfl, .input h1 hd⟩⟩
        | some s =>
          refine ⟨rfl, ?_⟩
          rcases loop_says junk s.length (ppmParams (lastValue uses) outFile) 1 s rfl with ⟨g1, before, s', line, g2, g3, g4⟩ | ⟨g1, g2⟩
          · refine .inl ⟨g1, ?_⟩
            simp only [g4]
            exact .picture h1 (by rw [hd, g2]) (pnmFormat_of h1.uses outFile) g3
          · exact .inr ⟨g1, g2⟩

/-! ## Proofs: pdf2printable -/

theorem runAfter_fails {α : Type} {events : List Event} {o : Outcome α} {f : α → Run} {e : Failure} (h : (runAfter events o f).result = .ok (some e)) :
    ∃ a, o = .ok a ∧ (f a).result = .ok (some e) := by
  cases o with
  | ok a => exact ⟨a, rfl, h⟩
  | throws x => cases h
  | ub => cases h
  | hang => cases h

theorem pages_fail {junk : Nat → Bytes} {lum : Luminosity} {lim : Limits} {lib : Library} {paper : Paper} {p : Params} {surface : Option (Nat × Nat)} {total : Nat}
    {e : Failure} (seq : List Nat) : ∀ (n : Nat) (drawn : List Drawn) (outBts : Bytes) (events : List Event),
    (machinePages junk lum lim lib (fun _ => true) paper p surface total seq n drawn outBts events).result = .ok (some e) →
    e = .cairo ∧ (surface = none ∨ ∃ drawn, lib.failed drawn = true) := by
  induction seq with
  | nil =>
    intro n drawn outBts events h
    unfold machinePages at h
    simp only [if_true] at h
    generalize outBts ++ _ = b at h
    by_cases hb : b.length ≠ 0
    · rw [if_pos hb] at h; cases h
    · rw [if_neg hb] at h; cases h
  | cons pageNo rest ih =>
    intro n drawn outBts events h
    unfold machinePages at h
    obtain ⟨d, -, h⟩ := runAfter_fails h
    split at h
    · cases h; exact ⟨rfl, .inl rfl⟩
    · split at h
      · rename_i hf
        cases h
        exact ⟨rfl, .inr ⟨_, hf⟩⟩
      · obtain ⟨b, -, h⟩ := runAfter_fails h
        simp only [if_true] at h
        exact ih _ _ _ _ h

theorem imageSize_none {limit w h : Nat} (hn : imageSize limit w h = none) : intOf w < 0 ∨ limit < intOf w ∨ intOf h < 0 ∨ limit < intOf h := by
  unfold imageSize at hn
  split at hn
  · cases hn
  · omega

theorem pdf_fails {junk : Nat → Bytes} {lum : Luminosity} {lim : Limits} {lib : Library} {paper : Paper} {p : Params} (w : Words) (inFile : Bytes) {e : Failure}
    (hp : p.format ≠ .Invalid) (h : (pdfMachine junk lum lim lib (fun _ => true) paper p).result = .ok (some e)) :
    ConversionFault lim lib w inFile paper p (failureText w inFile e) := by
  unfold pdfMachine at h
  split at h
  · rename_i hr
    cases h
    exact .resolution hr.1 hr.2
  · split at h
    · rename_i hn
      cases h
      exact .opening hn
    · rename_i pages hn
      have hne : lib.pages ≠ none := by rw [hn]; simp
      obtain ⟨seq, -, h⟩ := runAfter_fails h
      have raster : ∀ hdr, (p.format = .PWG ∨ p.format = .URF) → (machineRaster junk lum lim lib (fun _ => true) paper p seq hdr).result = .ok (some e) →
          ConversionFault lim lib w inFile paper p (failureText w inFile e) := by
        intro hdr hf h
        unfold machineRaster at h
        obtain ⟨x, hx, h⟩ := runAfter_fails h
        obtain ⟨y, hy, h⟩ := runAfter_fails h
        obtain ⟨rfl, h'⟩ := pages_fail seq _ _ _ _ h
        refine .drawing hne (h'.imp_left ?_)
        intro hs
        unfold surfaceFor at hs
        split at hs
        · rename_i h0
          rcases h0 with h0 | h0
          · exact .inl h0
          · exact .inr (.inl h0)
        · have hr : isRaster { p with widthPx := x, heightPx := y } = true := (isRaster_iff _).mpr hf
          rw [if_pos hr] at hs
          exact .inr (.inr ⟨hf, x, y, hx, hy, imageSize_none hs⟩)
      have vector : isRaster p = false → (machinePages junk lum lim lib (fun _ => true) paper p (surfaceFor lim p) seq.length seq 0 [] [] []).result = .ok (some e) →
          ConversionFault lim lib w inFile paper p (failureText w inFile e) := by
        intro hr h
        obtain ⟨rfl, h'⟩ := pages_fail seq _ _ _ _ h
        refine .drawing hne (h'.imp_left ?_)
        intro hs
        unfold surfaceFor at hs
        split at hs
        · rename_i h0
          rcases h0 with h0 | h0
          · exact .inl h0
          · exact .inr (.inl h0)
        · rw [hr] at hs; cases hs
      cases hf : p.format with
      | URF => rw [hf] at h; exact raster _ (.inr hf) h
      | PWG => rw [hf] at h; exact raster _ (.inl hf) h
      | PDF => rw [hf] at h; exact vector (by simp [isRaster, hf]) h
      | Postscript => rw [hf] at h; exact vector (by simp [isRaster, hf]) h
      | Invalid => exact absurd hf hp

theorem format_valid {uses : List Use} {outFile : Bytes} {f : Format} (h : PdfFormat uses outFile f) : f ≠ .Invalid := by
  obtain ⟨f', h1, h2⟩ := h
  unfold Named at h2
  split at h2
  · subst h2; cases h1 <;> simp
  · obtain ⟨s, -, hm⟩ := h2
    simp only [pdfFormats, List.mem_cons, Prod.mk.injEq, List.not_mem_nil, or_false] at hm
    rcases hm with h | h | h | h | h <;> rw [h.2] <;> simp

/-- The message is about what is refused. -/
theorem params_text {uses : List Use} (hu : ∀ u ∈ uses, IsUse pdfOpts u) (outFile : Bytes) (hn : pdfParams (lastValue uses) outFile = .ok none) :
    PdfRefusal uses outFile (paramsText (lastValue uses) outFile) := by
  have hf : PdfFormat uses outFile (pdfBasic (lastValue uses) outFile).format :=
    ⟨_, suggests_of outFile, named_of pdf_disjoint hu (i := 2) rfl pdfFormats rfl _⟩
  have hc : PdfColor uses (pdfBasic (lastValue uses) outFile).colorMode :=
    named_of pdf_disjoint hu (i := 12) rfl pdfColors rfl _
  have ht : (lastValue uses 16).isSome = (word uses [ascii "-mt", ascii "--media-type"]).isSome := by
    rcases value_cases pdf_disjoint hu (i := 16) (o := textOpt [ascii "-mt", ascii "--media-type"]) rfl rfl with ⟨_, h2, h3⟩ | ⟨w, v, _, h2, _, h4⟩
    · rw [h3, show word uses [ascii "-mt", ascii "--media-type"] = none from h2]; rfl
    · rw [h4, show word uses [ascii "-mt", ascii "--media-type"] = some w from h2]; rfl
  have hm := (common_pdf hu outFile).mediaType
  unfold pdfParams at hn
  unfold paramsText
  generalize hb : pdfBasic (lastValue uses) outFile = b at *
  have hr : b.pageRangeList = [] := by rw [← hb]; rfl
  rcases pages_of hu b hr with ⟨h0, h2⟩ | ⟨h0, ⟨⟨s, h1, h1'⟩, p', h2⟩ | ⟨h1, rs, h2, h3⟩⟩
  · rw [h2] at hn; cases hn
  · rw [h2]; exact .pages h1 h1'
  · rw [h2] at hn ⊢
    simp only at hn ⊢
    rcases paper_of hu with ⟨g0, g2⟩ | ⟨g0, ⟨⟨s, g1, g1'⟩, g2⟩ | ⟨g1, g2, g3⟩⟩
    · rw [g2] at hn; cases hn
    · rw [g2]; exact .paper g1 g1'
    · rw [g2] at hn ⊢
      simp only at hn ⊢
      have hbits : (({ b with pageRangeList := rs } : Params).bitsPerColor = 1 ∨ ({ b with pageRangeList := rs } : Params).isBlack = true) ↔
          (b.colorMode = .Black8 ∨ b.colorMode = .Gray1 ∨ b.colorMode = .Black1) := by
        unfold Params.bitsPerColor Params.isBlack
        cases b.colorMode <;> simp
      split at hn
      · rename_i h4
        rw [if_pos h4.2]
        exact .color ((show b.format = .URF from h4.1) ▸ hf) hc (hbits.mp h4.2)
      · rename_i h4
        split at hn
        · rename_i h5
          rw [if_neg (fun h => h4 ⟨h5.1, h⟩)]
          have h6 := h5.2.1
          rw [ht] at h6
          cases hw : word uses [ascii "-mt", ascii "--media-type"] with
          | none => rw [hw] at h6; cases h6
          | some t =>
            rw [hw] at hm
            have h7 := h5.2.2
            rw [show ({ b with pageRangeList := rs } : Params).mediaType = t from hm] at h7
            exact .media ((show b.format = .URF from h5.1) ▸ hf) hw ((isUrfMediaType_iff t).mp h7)
        · cases hn

/-- C112, pdf2printable: as for ppm2pwg. -/
theorem C112_pdf (junk : Nat → Bytes) (lum : Luminosity) (lim : Limits) (lib : Bytes → Bool → Library) (w : Words) (d : Disk) (name : Bytes) (args : List Bytes) :
    (AsksHelp pdfOpts args ∧ pdfMachineMain junk lum lim lib d args = { out := .ok 0, file := none } ∧
      pdfSays junk lum lim lib w name args = { stdout := ascii "Usage: " ++ name ++ pdfHelp, stderr := [] }) ∨
    (¬ AsksHelp pdfOpts args ∧ (pdfSays junk lum lim lib w name args).stdout = [] ∧
      (((pdfMachineMain junk lum lim lib d args).out = .ok 1 ∧
          PdfComplaint lim lib w name args (pdfMachineMain junk lum lim lib d args).file.isSome (pdfSays junk lum lim lib w name args).stderr) ∨
       ((pdfMachineMain junk lum lim lib d args).out ≠ .ok 1 ∧ (pdfSays junk lum lim lib w name args).stderr = []))) := by
  obtain ⟨e1, e2, e3⟩ := getArgs_bare (pdfTold.map (·.1)) pdfPos args
  rw [pdf_bare] at e1 e2 e3
  have hh := asksHelp_iff (opts := pdfOpts) rfl pdfPos args
  unfold pdfMachineMain pdfSays
  simp only [helpFor_pdf, ← e1, ← e2, ← e3]
  cases h0 : ((getArgs pdfOpts pdfPos args).vals 0).isSome with
  | true => exact .inl ⟨hh.mp h0, by simp, by simp⟩
  | false =>
    refine .inr ⟨fun h => (by rw [hh.mpr h] at h0; cases h0), ?_⟩
    simp only [Bool.false_eq_true, if_false]
    cases hs : (getArgs pdfOpts pdfPos args).success with
    | false =>
      simp only [Bool.false_eq_true, if_false]
      refine ⟨rfl, .inl ⟨trivial, ?_⟩⟩
      rw [printError_eq]
      rw [hs] at e1
      obtain ⟨uses, rest, h1, h2, h3⟩ := C95_message e1.symm
      exact .usage h1 (fun u hu => (isUse_bare _ u).mpr (h2 u hu)) h3
    | true =>
      simp only [if_true]
      obtain ⟨uses, inFile, outFile, h1, h2, h3⟩ := twoNames_of (opts := pdfOpts) rfl rfl hs
      change Accounts pdfOpts pdfPos args uses [inFile, outFile] at h1
      change (getArgs pdfOpts pdfPos args).vals = _ at h2
      change (getArgs pdfOpts pdfPos args).positional = _ at h3
      simp only [h2, h3, List.getD_cons_succ, List.getD_cons_zero]
      have haa : (lastValue uses 14).isSome = (lastUse uses [ascii "-aa", ascii "--antialias"]).isSome := by
        rw [switch_eq pdf_disjoint h1.uses (i := 14) (names := [ascii "-aa", ascii "--antialias"]) rfl]
      cases hp : pdfParams (lastValue uses) outFile with
      | ok o =>
        cases o with
        | none =>
          refine ⟨rfl, .inl ⟨rfl, ?_⟩⟩
          simp only
          rw [printError_eq]
          exact .refused h1 (params_text h1.uses outFile hp)
        | some x =>
          obtain ⟨paper, p⟩ := x
          have hj : PdfJob uses outFile paper p := by
            rcases params_of h1.uses outFile with ⟨-, h⟩ | ⟨-, ⟨-, h⟩ | ⟨-, paper', p', h, h'⟩⟩
            · rw [hp] at h; cases h
            · rw [hp] at h; cases h
            · rw [hp] at h'; cases h'; exact h
          simp only [haa]
          cases hres : (pdfMachine junk lum lim (lib inFile (lastUse uses [ascii "-aa", ascii "--antialias"]).isSome) (fun _ => true) paper p).result with
          | ok o =>
            cases o with
            | none => exact ⟨rfl, .inr ⟨(fun h => by cases h), rfl⟩⟩
            | some e =>
              refine ⟨rfl, .inl ⟨rfl, ?_⟩⟩
              exact .conversion h1 hj (pdf_fails w inFile (format_valid hj.format) hres)
          | throws e => exact ⟨rfl, .inr ⟨(fun h => by cases h), rfl⟩⟩
          | ub => exact ⟨rfl, .inr ⟨(fun h => by cases h), rfl⟩⟩
          | hang => exact ⟨rfl, .inr ⟨(fun h => by cases h), rfl⟩⟩
      | throws e => exact ⟨rfl, .inr ⟨(fun h => by cases h), rfl⟩⟩
      | ub => exact ⟨rfl, .inr ⟨(fun h => by cases h), rfl⟩⟩
      | hang => exact ⟨rfl, .inr ⟨(fun h => by cases h), rfl⟩⟩

/-- C112: the choices that the help lists for an option are accepted as its value. -/
theorem C112_choices {o : Opt} {doc wd : Bytes} (h : (o, doc) ∈ ppmTold ++ pdfTold) (hw : wd ∈ listed doc) : ∃ conv v, o.takes = some conv ∧ conv wd = some v := by
  have key : ∀ x ∈ ppmTold ++ pdfTold, (listed x.2).all (fun wd => (x.1.takes.bind (fun conv => conv wd)).isSome) = true := by decide +kernel
  have := List.all_eq_true.mp (key _ h) wd hw
  cases ht : o.takes with
  | none => rw [ht] at this; cases this
  | some conv =>
    rw [ht] at this
    obtain ⟨v, hv⟩ := Option.isSome_iff_exists.mp this
    exact ⟨conv, v, rfl, hv⟩

/-! ## Concrete cases -/

section Examples

/-- A disk with one file -/
private def oneFile (name data : Bytes) : Disk := { read := fun n => if n = name then some data else none, room := fun _ => none }

/-- A value that is none: the option's own text is said -/
example : (ppmSays (fun n => List.replicate n 0) (oneFile [] []) (ascii "ppm2pwg") [ascii "-f", ascii "gif"]).stderr.take 33 = ascii "Unrecognized target format (gif)\n" := by
  decide +kernel

/-- An ASCII picture is refused. -/
example : ppmSays (fun n => List.replicate n 0) (oneFile (ascii "a.ppm") (ascii "P3 1 1 255 ")) (ascii "ppm2pwg") [ascii "a.ppm", ascii "-"] =
    { stderr := ascii "Only P4/P5/P6 (raw) supported, got P3\n" } := by
  decide +kernel

/-- A bitmap whose rows are not of whole bytes is refused. -/
example : ppmSays (fun n => List.replicate n 0) (oneFile (ascii "a.pbm") (ascii "P4 7 1 ")) (ascii "ppm2pwg") [ascii "a.pbm", ascii "-"] =
    { stderr := ascii "Only whole-byte width P4 PBMs supported, got 7\n" } := by
  decide +kernel

/-- Help can be asked for behind other options, and comes up before something that is wrong. -/
example : AsksHelp ppmOpts [ascii "-v", ascii "--help", ascii "-f"] := (asksHelp_iff (opts := ppmOpts) rfl ppmPos _).mp (by decide +kernel)

/-- but not behind it -/
example : ¬ AsksHelp ppmOpts [ascii "-f", ascii "gif", ascii "--help"] := fun h => absurd ((asksHelp_iff (opts := ppmOpts) rfl ppmPos _).mpr h) (by decide +kernel)

/-- The help of pdf2printable lists six color modes. -/
example : ∃ x ∈ pdfTold, listed x.2 = [ascii "srgb24", ascii "cmyk32", ascii "gray8", ascii "black8", ascii "gray1", ascii "black1"] := by decide +kernel

end Examples

end Verif.Convert
