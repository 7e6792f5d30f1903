import Verif.Printer.Model
import Verif.Tools.Args

/-!
# Model of printer management (lib/ippprinter.cpp: attributes, jobs, identification, overrides; lib/ippattr.cpp: `fromString`)

The network, the files and the JSON parser (a submodule that is not part of the repository) are parameters.
Not modelled: debug output, the texts of exceptions (an error from an exception has an empty text here).
-/

namespace Verif.Printer

open Ipp Job

/-- `IppAttr::fromString`, ippattr.cpp 106-158. `std::stoi` throws one of two exceptions, which are not told apart here (the only
caller catches all). -/
def fromString (s : Bytes) (tag : UInt8) : Outcome Attr :=
  if tag = tInteger ∨ tag = tEnum then
    match Tools.stoi s with
    | some i => .ok (tag, .int i)
    | none => .throws .invalidArgument
  else if tag = tBoolean then
    if s = ascii "true" then .ok (tag, .bool true)
    else if s = ascii "false" then .ok (tag, .bool false)
    else .throws .outOfRange
  else if tag ∈ [0x35, 0x36, 0x41, 0x42, 0x44, 0x45, 0x46, 0x47, 0x48, 0x49] then .ok (tag, .str s)
  else .throws .logicError

/-- The loop at ippprinter.cpp 438-452; what it throws is caught there. -/
def toSet (printerAttrs : Attrs) : List (Bytes × Bytes) → Attrs → Outcome Attrs
  | [], acc => .ok acc
  | (name, value) :: r, acc =>
    match KMap.get? printerAttrs name with
    | some old => do
      let attr ← fromString value old.1
      toSet printerAttrs r (KMap.assign acc name attr)
    | none => toSet printerAttrs r acc

/-- The error that `_doRequest` returns. -/
def errorOf : Except Bytes Msg → Option Bytes
  | .error e => some e
  | .ok _ => none

/-- ippprinter.cpp 453-456 -/
def sendAttributes (reqId : Nat) (p : Printer) (attrs : Attrs) (reply : Except Bytes Bytes) : Act (Option Bytes) := do
  let m ← Act.lift (mkMsg p 0x0013 [] [] attrs)
  let r ← doRequest reqId m reply
  return errorOf r

/-- `setAttributes`, ippprinter.cpp 434-457 -/
def setAttributes (reqId : Nat) (p : Printer) (kvs : List (Bytes × Bytes)) (reply : Except Bytes Bytes) : Act (Option Bytes) :=
  match toSet p.attrs kvs [] with
  | .ok attrs => sendAttributes reqId p attrs reply
  | .throws _ => pure (some [])
  | .ub => Act.lift .ub
  | .hang => Act.lift .hang

/-- `identify`, ippprinter.cpp 423-432 -/
def identify (reqId : Nat) (p : Printer) (reply : Except Bytes Bytes) : Act (Option Bytes) :=
  if KMap.has p.attrs (ascii "identify-actions-supported") then do
    let m ← Act.lift (mkMsg p 0x003c [] [] [])
    let r ← doRequest reqId m reply
    return errorOf r
  else pure (some (ascii "Identify not supported."))

/-- `JobInfo`, ippprinter.h 34-40 -/
structure JobInfo where
  id : Int
  name : Bytes
  state : Int
  stateMessage : Bytes
  deriving DecidableEq, Repr

/-- ippprinter.cpp 471-474 -/
def jobInfo (a : Attrs) : Outcome JobInfo := do
  let id ← getInteger a (ascii "job-id")
  let name ← getString a (ascii "job-name") []
  let state ← getInteger a (ascii "job-state")
  let message ← getString a (ascii "job-printer-state-message") []
  return ⟨id, name, state, message⟩

/-- The loop at ippprinter.cpp 469-475. -/
def jobInfos : List Attrs → Outcome (List JobInfo)
  | [] => .ok []
  | a :: r => do
    let i ← jobInfo a
    let is ← jobInfos r
    return i :: is

/-- ippprinter.cpp 465-476 -/
def listJobs : Except Bytes Msg → Outcome (Option Bytes × List JobInfo)
  | .error e => .ok (some e, [])
  | .ok resp => do
    let l ← jobInfos resp.jobAttrs
    return (none, l)

/-- `getJobs`, ippprinter.cpp 459-477: the error and the list -/
def getJobs (reqId : Nat) (p : Printer) (reply : Except Bytes Bytes) : Act (Option Bytes × List JobInfo) := do
  let m ← Act.lift (mkMsg p 0x000a [(ascii "requested-attributes", (0x44, .str (ascii "all")))] [] [])
  let r ← doRequest reqId m reply
  Act.lift (listJobs r)

/-- ippprinter.cpp 486-494 -/
def cancelResult : Except Bytes Msg → Outcome (Option Bytes)
  | .error e => .ok (some e)
  | .ok resp =>
    if resp.opOrStatus > 0xff then do
      let s ← getString resp.opAttrs (ascii "status-message") (ascii "unknown")
      return some s
    else .ok none

/-- `cancelJob`, ippprinter.cpp 479-495 -/
def cancelJob (reqId : Nat) (p : Printer) (jobId : Int) (reply : Except Bytes Bytes) : Act (Option Bytes) := do
  let m ← Act.lift (mkMsg p 0x0008 [(ascii "job-id", (0x21, .int jobId))] [] [])
  let r ← doRequest reqId m reply
  Act.lift (cancelResult r)

/-! ## Attributes of a printer -/

/-- The files and the JSON parser. -/
structure Files where
  /-- what a file contains, if it can be opened -/
  read : Bytes → Option Bytes
  /-- the file `overrides` in the directory of the configuration -/
  overrides : Option Bytes
  /-- `Json::parse`: the error text or the value -/
  parse : Bytes → Except Bytes Json

/-- The state of the loops in `_applyOverrides`: the attributes of the printer, and whether an exception ended the loops. -/
abbrev Overriding := Attrs × Outcome Unit

/-- The inner loop of `_applyOverrides`, ippprinter.cpp 571-584, for one name. -/
def overrideValues (name : Bytes) : List (Bytes × Json) → Attrs → Overriding
  | [], a => (a, .ok ())
  | (value, obj) :: r, a =>
    match KMap.get? a name with
    | none => overrideValues name r a
    | some (_, .str s) =>
      if s = value then
        match attrsFromJson obj with
        | .ok o => overrideValues name r (assignAll a o)
        | .throws e => (a, .throws e)
        | .ub => (a, .ub)
        | .hang => (a, .hang)
      else overrideValues name r a
    | some _ => (a, .throws .badVariant)

/-- The outer loop of `_applyOverrides`, ippprinter.cpp 569-585. -/
def overrideAll : List (Bytes × Json) → Attrs → Overriding
  | [], a => (a, .ok ())
  | (name, obj) :: r, a =>
    match overrideValues name obj.objectItems a with
    | (a', .ok ()) => overrideAll r a'
    | (a', .throws e) => (a', .throws e)
    | (a', .ub) => (a', .ub)
    | (a', .hang) => (a', .hang)

/-- `_applyOverrides`, ippprinter.cpp 555-591: an exception leaves what was overridden before it. After an error of the parser the JSON
value is null and has no items. -/
def applyOverrides (files : Files) (a : Attrs) : Outcome Attrs :=
  match files.overrides with
  | none => .ok a
  | some text =>
    match files.parse text with
    | .error _ => .ok a
    | .ok json =>
      match overrideAll json.objectItems a with
      | (a', .ok ()) => .ok a'
      | (a', .throws _) => .ok a'
      | (_, .ub) => .ub
      | (_, .hang) => .hang

/-- The attributes in the file of a fake printer, ippprinter.cpp 25-47: whether the function returns at once, the error and the
attributes (`old`: those that the printer had). -/
def fakeAttrs (files : Files) (old : Attrs) (text : Bytes) : Outcome (Bool × Option Bytes × Attrs) :=
  match text with
  | [] => .ok (false, some [], old)
  | b :: _ =>
    if b = 123 then
      match files.parse text with
      | .error e => .ok (true, some e, old)
      | .ok json =>
        match attrsFromJson json with
        | .ok a => .ok (false, none, a)
        | .throws _ => .ok (false, some [], old)
        | .ub => .ub
        | .hang => .hang
    else
      match decodeMsg text with
      | .ok (m, _) => .ok (false, none, m.printerAttrs)
      | .throws _ => .ok (false, some [], old)
      | .ub => .ub
      | .hang => .hang

/-- ippprinter.cpp 20-48 and 55-56, for the file of a fake printer -/
def refreshFromFile (files : Files) (p : Printer) : Outcome (Option Bytes × Printer) :=
  match files.read (p.addr.drop 7) with
  | none => .ok (some (ascii "Failed to open fake-printer file."), p)
  | some text => do
    let (returns, e, a) ← fakeAttrs files p.attrs text
    if returns then return (e, { p with attrs := a })
    else do
      let a' ← applyOverrides files a
      return (e, { p with attrs := a' })

/-- The attributes in a reply; after an error the message is an empty one (ippprinter.cpp 51-53). -/
def replyAttrs : Except Bytes Msg → Attrs
  | .error _ => []
  | .ok m => m.printerAttrs

/-- `refresh`, ippprinter.cpp 15-57: the error and the printer -/
def refresh (files : Files) (reqId : Nat) (p : Printer) (reply : Except Bytes Bytes) : Act (Option Bytes × Printer) :=
  if Text.startsWith p.addr (ascii "file://") then Act.lift (refreshFromFile files p)
  else do
    let m ← Act.lift (mkMsg p 0x000b [] [] [])
    let r ← doRequest reqId m reply
    let a ← Act.lift (applyOverrides files (replyAttrs r))
    return (errorOf r, { p with attrs := a })

/-- The constructor, ippprinter.cpp 10-13: a printer without attributes is refreshed. -/
def construct (files : Files) (reqId : Nat) (addr user : Bytes) (reply : Except Bytes Bytes) : Act (Option Bytes × Printer) :=
  refresh files reqId { addr := addr, user := user, attrs := [] } reply

/-- `supportsPrinterRaster`, ippprinter.cpp 375-379 -/
def supportsPrinterRaster (p : Printer) : Outcome Bool := do
  let formats ← documentFormats p
  return formats.contains pwg || formats.contains urf

end Verif.Printer
