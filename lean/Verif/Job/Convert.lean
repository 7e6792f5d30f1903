import Verif.Core.Bytes
import Verif.Text.Model

/-!
# Model of the format conversion table (lib/converter.h 90-152) and of format names (lib/minimime.cpp 10-20, 66-99)
-/

namespace Verif.Job

/-! lib/minimime.cpp 10-20 -/

/-- minimime.cpp 10 -/ def octetStream : Bytes := ascii "application/octet-stream"
/-- minimime.cpp 12 -/ def pdf : Bytes := ascii "application/pdf"
/-- minimime.cpp 13 -/ def postscript : Bytes := ascii "application/postscript"
/-- minimime.cpp 14 -/ def pwg : Bytes := ascii "image/pwg-raster"
/-- minimime.cpp 15 -/ def urf : Bytes := ascii "image/urf"
/-- minimime.cpp 17 -/ def png : Bytes := ascii "image/png"
/-- minimime.cpp 18 -/ def gif : Bytes := ascii "image/gif"
/-- minimime.cpp 19 -/ def jpeg : Bytes := ascii "image/jpeg"
/-- minimime.cpp 20 -/ def tiff : Bytes := ascii "image/tiff"

/-- `MiniMime::isPrinterRaster`, minimime.cpp 77-81 -/
def isPrinterRaster (mime : Bytes) : Bool := mime == pwg || mime == urf

/-- `MiniMime::isImage`, minimime.cpp 72-75 -/
def isImage (mime : Bytes) : Bool := Text.startsWith mime (ascii "image/") && !isPrinterRaster mime

/-- The conversion functions of lib/converter.h 34-88, and those that a program adds to the list; which one it is, not what it does. -/
inductive ConvertFun where
  | pdf2Printable | baselinify | justUpload | fixupText
  | user (n : Nat)
  deriving DecidableEq, Repr

/-- `List<std::pair<ConvertKey, ConvertFun>>` -/
abbrev Pipelines := List ((Bytes × Bytes) × ConvertFun)

/-- The initial value of `Pipelines`, lib/converter.h 90-95. -/
def defaultPipelines : Pipelines :=
  [((pdf, pdf), .pdf2Printable), ((pdf, postscript), .pdf2Printable), ((pdf, pwg), .pdf2Printable), ((pdf, urf), .pdf2Printable),
   ((jpeg, jpeg), .baselinify), ((ascii "text/plain", ascii "text/plain"), .fixupText)]

/-- The loop of `getConvertFun`, lib/converter.h 99-105. -/
def findFun (key : Bytes × Bytes) : Pipelines → Option ConvertFun
  | [] => none
  | (k, f) :: r => if k = key then some f else findFun key r

/-- `getConvertFun`, lib/converter.h 97-111 -/
def getConvertFun (pl : Pipelines) (input target : Bytes) : Option ConvertFun :=
  match findFun (input, target) pl with
  | some f => some f
  | none => if input = target then some .justUpload else none

/-- `canConvert`, lib/converter.h 113-116 -/
def canConvert (pl : Pipelines) (input target : Bytes) : Bool := (getConvertFun pl input target).isSome

/-- The loop of `getTargetFormat`, lib/converter.h 120-126. -/
def findTarget (input : Bytes) (supported : List Bytes) : Pipelines → Option Bytes
  | [] => none
  | ((i, t), _) :: r => if i = input ∧ supported.contains t then some t else findTarget input supported r

/-- `getTargetFormat`, lib/converter.h 118-132 -/
def getTargetFormat (pl : Pipelines) (input : Bytes) (supported : List Bytes) : Option Bytes :=
  match findTarget input supported pl with
  | some t => some t
  | none => if supported.contains input then some input else none

/-- The first loop of `possibleInputFormats`, lib/converter.h 137-143. -/
def inputsOfPipelines (supported : List Bytes) (inputs : List Bytes) : Pipelines → List Bytes
  | [] => inputs
  | ((i, t), _) :: r =>
    if supported.contains t ∧ ¬ inputs.contains i then inputsOfPipelines supported (inputs ++ [i]) r
    else inputsOfPipelines supported inputs r

/-- The second loop of `possibleInputFormats`, lib/converter.h 144-150. -/
def addMissing (inputs : List Bytes) : List Bytes → List Bytes
  | [] => inputs
  | f :: r => if inputs.contains f then addMissing inputs r else addMissing (inputs ++ [f]) r

/-- `possibleInputFormats`, lib/converter.h 134-152 -/
def possibleInputFormats (pl : Pipelines) (supported : List Bytes) : List Bytes :=
  addMissing (inputsOfPipelines supported [] pl) supported

end Verif.Job
