import Verif.Convert.Model
import Verif.Jpeg.Model

/-!
# Model of the conversion functions, lib/converter.h 34-88

What `Printer.Env` leaves open: which blocks a conversion function writes for a file and a job, and how it ends. poppler, cairo, libjpeg and the files
are parameters.
-/

namespace Verif.Deliver

open Job Printer

/-- What the conversion functions use. -/
structure Tools where
  /-- the contents of a file; none: it can not be opened (binfile.h 16-27) -/
  read : Bytes → Option Bytes
  /-- poppler and cairo, for a file (pdf2printable.cpp 78-96) -/
  pdf : Bytes → Pdf.Library
  lum : Pdf.Luminosity := Pdf.codeLuminosity
  jpeg : Jpeg.Library
  /-- what libjpeg's output buffer has at first (baselinify.cpp 48-55) -/
  buffer : Bytes
  /-- whether the last of these blocks is taken (ippprinter.cpp 151-156) -/
  taken : List Bytes → Bool
  /-- the texts of the errors, pdf2printable.cpp 37, 60, 96, 140, 194 -/
  text : Pdf.Failure → Bytes
  /-- the functions that a program adds to the list -/
  user : Nat → Bytes → PrintJob → List Bytes × Outcome (Option Bytes)

/-- `job.printParams`: the parameters with the sizes that the getters give (Verif/Convert/Model.lean). -/
def printParams (j : PrintJob) : Params := Convert.withPaper j.paper j.params

/-- The functions that read the whole file, make one block of it, and ignore whether that is taken: converter.h 46-51, 63-68, 73-79. -/
def wholeFile (t : Tools) (inFile : Bytes) (f : Bytes → Outcome Bytes) : List Bytes × Outcome (Option Bytes) :=
  match t.read inFile with
  | none => ([], .ok (some (ascii "Failed to open input")))
  | some b =>
    match f b with
    | .ok out => ([out], .ok none)
    | .throws e => ([], .throws e)
    | .ub => ([], .ub)
    | .hang => ([], .hang)

/-- converter.h 52-54: libjpeg's error handler ends the program, which appears here as not coming back. -/
def makeBaseline (t : Tools) (inBts : Bytes) : Outcome Bytes :=
  match Jpeg.baselinify t.jpeg t.buffer inBts [] with
  | .ok (.written out) => .ok out
  | .ok .exited => .hang
  | .throws e => .throws e
  | .ub => .ub
  | .hang => .hang

/-- converter.h 36-39: the blocks, and the error -/
def renderPdf (t : Tools) (inFile : Bytes) (j : PrintJob) : List Bytes × Outcome (Option Bytes) :=
  let r := Pdf.pdfToPrintable t.lum (t.pdf inFile) t.taken j.paper (printParams j)
  (Pdf.blocks r.events, r.result.bind (fun e => .ok (e.map t.text)))

/-- The conversion functions, converter.h 34-88 -/
def convert (t : Tools) (inFile : Bytes) : ConvertFun → PrintJob → List Bytes × Outcome (Option Bytes)
  | .pdf2Printable, j => renderPdf t inFile j
  | .baselinify, _ => wholeFile t inFile (makeBaseline t)
  | .justUpload, _ => wholeFile t inFile .ok
  | .fixupText, _ => wholeFile t inFile (fun b => .ok (Text.fixupText b))
  | .user n, j => t.user n inFile j

end Verif.Deliver
