import Verif.Job.Model

/-!
# Model of printers (lib/ippprinter.h, lib/ippprinter.cpp)

The network and the converters are parameters (`Env`): a theorem about `runJob` is about every reply of the printer and every
behaviour of the converters. What happens is recorded as a list of events.

Not modelled: reading fake printer files (18-48), debug output, the texts of messages, and the order of
the network events of `doPrint` within the two threads (Verif/Transport).
-/

namespace Verif.Printer

open Ipp Job

/-- `IppPrinter`, ippprinter.h 103-108: the address and the attributes; `user` stands for what `baseOpAttrs` reads from the
environment. -/
structure Printer where
  addr : Bytes
  user : Bytes := ascii "anonymous"
  attrs : Attrs
  deriving DecidableEq, Repr

/-- `_printerAttrs.getList<int>(name)` -/
def intList (a : Attrs) (name : Bytes) : Outcome (List Int) := do
  let l ← Attrs.getList a .int name
  return l.map intOf

/-- `_printerAttrs.get<std::string>(name)`; the default is the empty string (lib/ippattr.h 149) -/
def getString (a : Attrs) (name default : Bytes) : Outcome Bytes := do
  let v ← Attrs.get a .str name (.str default)
  return strOf v

/-- `_printerAttrs.get<int>(name)` -/
def getInteger (a : Attrs) (name : Bytes) : Outcome Int := do
  let v ← Attrs.get a .int name (.int 0)
  return intOf v

/-! ## Supplies, firmware, state -/

/-- `Supply`, ippprinter.h 15-26 -/
structure Supply where
  name : Bytes
  type : Bytes
  colors : List Bytes
  level : Int
  lowLevel : Int
  highLevel : Int
  deriving DecidableEq, Repr

/-- ippprinter.cpp 294-301 -/
def colorList (color : Bytes) : List Bytes :=
  ((Text.splitString [35] color).filter (fun c => decide (c ≠ []))).map
    (fun c => if c = ascii "none" then c else ascii "#" ++ c)

/-- `*it` for an iterator, which is what is left of the list: at the end there is nothing to read. -/
def deref {α : Type} : List α → Outcome α
  | a :: _ => .ok a
  | [] => .ub

/-- The loop at ippprinter.cpp 289-303: the iterators are what is left of the lists; `name != names.cend()` is in the match. -/
def supplyLoop : List Bytes → List Bytes → List Bytes → List Int → List Int → List Int → Outcome (List Supply)
  | [], _, _, _, _, _ => .ok []
  | n :: ns, ts, cs, ls, ws, hs =>
    if ts ≠ [] ∧ cs ≠ [] ∧ ls ≠ [] ∧ ws ≠ [] ∧ hs ≠ [] then do
      let c ← deref cs
      let t ← deref ts
      let l ← deref ls
      let w ← deref ws
      let h ← deref hs
      let rest ← supplyLoop ns ts.tail cs.tail ls.tail ws.tail hs.tail
      return ⟨n, t, colorList c, l, w, h⟩ :: rest
    else .ok []

/-- `supplies`, ippprinter.cpp 272-305 -/
def supplies (p : Printer) : Outcome (List Supply) := do
  let names ← strList p.attrs (ascii "marker-names")
  let types ← strList p.attrs (ascii "marker-types")
  let colors ← strList p.attrs (ascii "marker-colors")
  let levels ← intList p.attrs (ascii "marker-levels")
  let lowLevels ← intList p.attrs (ascii "marker-low-levels")
  let highLevels ← intList p.attrs (ascii "marker-high-levels")
  supplyLoop names types colors levels lowLevels highLevels

/-- The loop at ippprinter.cpp 313-318. -/
def firmwareLoop : List Bytes → List Bytes → Outcome (List (Bytes × Bytes))
  | [], _ => .ok []
  | n :: ns, vs =>
    if vs ≠ [] then do
      let v ← deref vs
      let rest ← firmwareLoop ns vs.tail
      return (n, v) :: rest
    else .ok []

/-- `firmware`, ippprinter.cpp 307-320: names and versions -/
def firmware (p : Printer) : Outcome (List (Bytes × Bytes)) := do
  let names ← strList p.attrs (ascii "printer-firmware-name")
  let versions ← strList p.attrs (ascii "printer-firmware-string-version")
  firmwareLoop names versions

/-- `getPercent`, ippprinter.cpp 381-384. `level*100.0` is exact, the quotient of a number below 2^38 by one below 2^31 is rounded
by less than its distance to the next integer, so truncation gives the truncated exact quotient. Converting to `int` what is out of its
range is undefined. -/
def getPercent (s : Supply) : Outcome Int :=
  let q := (s.level * 100).tdiv (if s.highLevel ≠ 0 then s.highLevel else 100)
  if q < -2147483648 ∨ 2147483647 < q then .ub else .ok q

/-- `isLow`, ippprinter.cpp 386-389 -/
def isLow (s : Supply) : Bool := decide (s.level ≤ s.lowLevel)

/-- The loop at ippprinter.cpp 413-420. -/
def warns : List Bytes → Bool
  | [] => false
  | r :: rs => if r ≠ ascii "none" ∧ Text.endsWith r (ascii "-report") = false then true else warns rs

/-- `isWarningState`, ippprinter.cpp 407-421; the reasons are not read for a state above 4. -/
def isWarningState (p : Printer) : Outcome Bool := do
  let state ← getInteger p.attrs (ascii "printer-state")
  if state > 4 then return true
  else do
    let reasons ← strList p.attrs (ascii "printer-state-reasons")
    return warns reasons

/-! ## Document formats -/

/-- `documentFormats`, ippprinter.cpp 337-340 -/
def documentFormats (p : Printer) : Outcome (List Bytes) := strList p.attrs (ascii "document-format-supported")

/-- ippprinter.cpp 343-367, for the base formats and the device id -/
def guessFormats (base : List Bytes) (id : Bytes) : List Bytes :=
  (if base.contains pdf = false ∧ Text.contains id (ascii "PDF") = true then [pdf] else []) ++
  (if base.contains postscript = false ∧ (Text.contains id (ascii "POSTSCRIPT") || Text.contains id (ascii "PostScript")) = true
    then [postscript] else []) ++
  (if base.contains pwg = false ∧ Text.contains id (ascii "PWG") = true then [pwg] else []) ++
  (if base.contains urf = false ∧ (Text.contains id (ascii "URF") || Text.contains id (ascii "AppleRaster")) = true
    then [urf] else [])

/-- `additionalDocumentFormats`, ippprinter.cpp 342-368 -/
def additionalDocumentFormats (p : Printer) : Outcome (List Bytes) := do
  let base ← documentFormats p
  let id ← getString p.attrs (ascii "printer-device-id") []
  return guessFormats base id

/-- `possibleInputFormats`, ippprinter.cpp 370-373 -/
def inputFormats (pl : Pipelines) (p : Printer) : Outcome (List Bytes) := do
  let base ← documentFormats p
  let additional ← additionalDocumentFormats p
  return Job.possibleInputFormats pl (base ++ additional)

/-- `createJob`, ippprinter.h 56-59 -/
def createJob (p : Printer) : Outcome PrintJob := do
  let additional ← additionalDocumentFormats p
  return PrintJob.new p.attrs additional

/-! ## Requests -/

/-- What `runJob` and the other requests do to the outside. -/
inductive Event where
  /-- `_doRequest`, ippprinter.cpp 515: a request is sent, here as message and as bytes -/
  | post (m : Msg) (bytes : Bytes)
  /-- ippprinter.cpp 139-140: the stream is opened and the message written to it -/
  | openStream (m : Msg) (bytes : Bytes)
  /-- ippprinter.cpp 144, 148: the compression that follows (true: gzip, false: deflate) -/
  | compress (gzip : Bool)
  /-- ippprinter.cpp 155: a block of the document is written -/
  | block (b : Bytes)
  /-- ippprinter.cpp 165, or 187 (the destructor, curlrequester.cpp 66): the end of the data is signalled -/
  | finish
  /-- ippprinter.cpp 194-195: the debug file of this name is made in the directory for temporary files (which is taken to exist) -/
  | create (name : Bytes)
  /-- ippprinter.cpp 199: a block is written to the debug file -/
  | file (b : Bytes)
  /-- ippprinter.cpp 208: it is told that the debug file has been written -/
  | wrote (name : Bytes)
  /-- ippprinter.cpp 174: the number of the job is shown -/
  | submitted (id : Int)
  deriving DecidableEq, Repr

/-- A computation with events. -/
structure Act (α : Type) where
  events : List Event
  out : Outcome α

namespace Act

/-- sequencing -/
def bind {α β : Type} (x : Act α) (f : α → Act β) : Act β :=
  match x.out with
  | .ok a => ⟨x.events ++ (f a).events, (f a).out⟩
  | .throws e => ⟨x.events, .throws e⟩
  | .ub => ⟨x.events, .ub⟩
  | .hang => ⟨x.events, .hang⟩

instance : Monad Act where
  pure a := ⟨[], .ok a⟩
  bind := bind

/-- a computation without events -/
def lift {α : Type} (x : Outcome α) : Act α := ⟨[], x⟩

/-- events -/
def emit (es : List Event) : Act Unit := ⟨es, .ok ()⟩

end Act

/-- What the outside does. A reply is the error of the transfer, or the bytes received. -/
structure Env where
  pipelines : Pipelines
  /-- the reply to the request that creates the job -/
  createReply : Except Bytes Bytes
  /-- the reply to the request with the document -/
  printReply : Except Bytes Bytes
  /-- what a converter does: the blocks it writes, and how it ends (an error, an exception) -/
  convert : ConvertFun → PrintJob → List Bytes × Outcome (Option Bytes)
  /-- the number of the next request, ippmsg.cpp 5 -/
  reqId : Nat
  /-- `_printJobId`, ippprinter.h 92-95, 105 (a member of the printer there) -/
  showJobId : Bool := false

/-- Where an error that `runJob` returns comes from (the texts are not modelled further). -/
inductive RunError where
  /-- line 70 -/
  | job (e : JobError)
  /-- line 77 -/
  | noConversion
  /-- line 96 with the error of `_doRequest`, line 116 with the status message -/
  | createFailed (msg : Bytes)
  /-- line 161 -/
  | convert (e : Bytes)
  /-- line 179 -/
  | printFailed (msg : Bytes)
  /-- line 184 -/
  | network (msg : Bytes)
  /-- line 131 -/
  | exception (e : Exn)
  deriving DecidableEq, Repr

/-- `_mkMsg`, ippprinter.cpp 543-554, with the constructor at ippmsg.cpp 55-62 -/
def mkMsg (p : Printer) (op : UInt16) (opAttrs jobAttrs printerAttrs : Attrs) : Outcome Msg := do
  let versions ← strList p.attrs (ascii "ipp-versions-supported")
  return { majVsn := if versions.contains (ascii "2.0") then 2 else 1,
           minVsn := if versions.contains (ascii "2.0") then 0 else 1,
           opOrStatus := op,
           opAttrs := KMap.insertAll opAttrs (baseOpAttrs p.addr p.user),
           jobAttrs := [jobAttrs], printerAttrs := printerAttrs }

/-- A reply to `_doRequest`, ippprinter.cpp 518-540: the text of the error (of an exception, nothing), or the message. -/
def received : Except Bytes Bytes → Outcome (Except Bytes Msg)
  | .error t => .ok (.error t)
  | .ok data =>
    match decodeMsg data with
    | .ok (m, _) => .ok (.ok m)
    | .throws _ => .ok (.error [])
    | .ub => .ub
    | .hang => .hang

/-- `_doRequest`, ippprinter.cpp 503-541 -/
def doRequest (reqId : Nat) (m : Msg) (reply : Except Bytes Bytes) : Act (Except Bytes Msg) := do
  let bytes ← Act.lift (encodeMsg reqId m)
  Act.emit [.post m bytes]
  Act.lift (received reply)

/-- ippprinter.cpp 142-149; `get()` has the empty string as fallback -/
def compressionEvents (compression : Bytes) : List Event :=
  if compression = ascii "gzip" then [.compress true]
  else if compression = ascii "deflate" then [.compress false]
  else []

/-- ippprinter.cpp 151-156: empty blocks are not written. -/
def blockEvents (blocks : List Bytes) : List Event := (blocks.filter (fun b => decide (b ≠ []))).map .block

/-- ippprinter.cpp 171-175 -/
def showJob (showJobId : Bool) (jobAttrs : List Attrs) : Act (Option RunError) :=
  match jobAttrs with
  | [] => pure none
  | a :: _ =>
    if showJobId then do
      let id ← Act.lift (getInteger a (ascii "job-id"))
      Act.emit [.submitted id]
      return none
    else pure none

/-- ippprinter.cpp 166-185 -/
def printResult (showJobId : Bool) (reply : Except Bytes Bytes) : Act (Option RunError) :=
  match reply with
  | .error t => pure (some (.network t))
  | .ok data => do
    let (m, _) ← Act.lift (decodeMsg data)
    if m.opOrStatus < 0xff then showJob showJobId m.jobAttrs
    else do
      let s ← Act.lift (getString m.opAttrs (ascii "status-message") (ascii "unknown"))
      return some (.printFailed s)

/-- ippprinter.cpp 158-187. When the function is left by an error or an exception the destructor of the streamer ends the transfer. -/
def convertAndAwait (env : Env) (f : ConvertFun) (job : PrintJob) : Act (Option RunError) :=
  let (blocks, r) := env.convert f job
  match r with
  | .ok none => ⟨blockEvents blocks ++ [.finish] ++ (printResult env.showJobId env.printReply).events, (printResult env.showJobId env.printReply).out⟩
  | .ok (some e) => ⟨blockEvents blocks ++ [.finish], .ok (some (.convert e))⟩
  | .throws e => ⟨blockEvents blocks ++ [.finish], .throws e⟩
  | .ub => ⟨blockEvents blocks, .ub⟩
  | .hang => ⟨blockEvents blocks, .hang⟩

/-- ippprinter.cpp 142-149: an exception from `get` ends the transfer (the destructor of the streamer). -/
def useCompression (job : PrintJob) : Act Unit :=
  match getStr sCompression job.printerAttrs job.opAttrs [] with
  | .ok c => Act.emit (compressionEvents c)
  | .throws e => ⟨[.finish], .throws e⟩
  | .ub => ⟨[], .ub⟩
  | .hang => ⟨[], .hang⟩

/-- `doPrint`, ippprinter.cpp 136-188 -/
def doPrint (env : Env) (reqId : Nat) (job : PrintJob) (f : ConvertFun) (m : Msg) : Act (Option RunError) := do
  let bytes ← Act.lift (encodeMsg reqId m)
  Act.emit [.openStream m bytes]
  useCompression job
  convertAndAwait env f job

/-- `MiniMime::defaultExtension`, minimime.cpp 89-100: `at` throws. -/
def defaultExtension (mime : Bytes) : Outcome Bytes :=
  if mime = pdf then .ok (ascii ".pdf")
  else if mime = postscript then .ok (ascii ".ps")
  else if mime = pwg then .ok (ascii ".pwg")
  else if mime = urf then .ok (ascii ".urf")
  else if mime = png then .ok (ascii ".png")
  else if mime = gif then .ok (ascii ".gif")
  else if mime = jpeg then .ok (ascii ".jpg")
  else if mime = tiff then .ok (ascii ".tiff")
  else .throws .outOfRange

/-- ippprinter.cpp 203-209 -/
def fileEvents (name : Bytes) : List Bytes × Outcome (Option Bytes) → Act (Option RunError)
  | (blocks, .ok none) => ⟨blocks.map .file ++ [.wrote name], .ok none⟩
  | (blocks, .ok (some _)) => ⟨blocks.map .file, .ok none⟩
  | (blocks, .throws e) => ⟨blocks.map .file, .throws e⟩
  | (blocks, .ub) => ⟨blocks.map .file, .ub⟩
  | (blocks, .hang) => ⟨blocks.map .file, .hang⟩

/-- ippprinter.cpp 81 with `doPrintToFile` (190-210): the error is ignored; an exception is not. -/
def printToFile (env : Env) (job : PrintJob) (f : ConvertFun) (fileName : Bytes) : Act (Option RunError) := do
  let ext ← Act.lift (defaultExtension job.targetFormat)
  Act.emit [.create (ascii "ippclient-debug-" ++ fileName ++ ext)]
  fileEvents (ascii "ippclient-debug-" ++ fileName ++ ext) (env.convert f job)

/-- ippprinter.cpp 108-112 -/
def sendDocument (env : Env) (p : Printer) (job : PrintJob) (f : ConvertFun) (jobId : Int) : Act (Option RunError) := do
  let m ← Act.lift (mkMsg p 0x0006
    (KMap.assign (KMap.assign job.opAttrs (ascii "job-id") (0x21, .int jobId)) (ascii "last-document") (0x22, .bool true)) [] [])
  doPrint env (nextReqId env.reqId) job f m

/-- ippprinter.cpp 100-117: the reply to Create-Job -/
def afterCreate (env : Env) (p : Printer) (job : PrintJob) (f : ConvertFun) (resp : Msg) : Act (Option RunError) :=
  let respJob := resp.jobAttrs.head?.getD []
  if resp.opOrStatus ≤ 0xff ∧ KMap.has respJob (ascii "job-id") then do
    let jobId ← Act.lift (getInteger respJob (ascii "job-id"))
    sendDocument env p job f jobId
  else do
    let s ← Act.lift (getString resp.opAttrs (ascii "status-message") (ascii "unknown"))
    return some (.createFailed s)

/-- ippprinter.cpp 94-118 -/
def createResult (env : Env) (p : Printer) (job : PrintJob) (f : ConvertFun) :
    Except Bytes Msg → Act (Option RunError)
  | .error e => pure (some (.createFailed e))
  | .ok resp => afterCreate env p job f resp

/-- ippprinter.cpp 89-118 -/
def createAndSend (env : Env) (p : Printer) (job : PrintJob) (f : ConvertFun) (fileName : Bytes) : Act (Option RunError) := do
  let m ← Act.lift (mkMsg p 0x0005 [(ascii "job-name", (0x42, .str fileName))] job.jobAttrs [])
  let r ← doRequest env.reqId m env.createReply
  createResult env p job f r

/-- ippprinter.cpp 122-125 -/
def printJob (env : Env) (p : Printer) (job : PrintJob) (f : ConvertFun) (fileName : Bytes) : Act (Option RunError) := do
  let m ← Act.lift (mkMsg p 0x0002 (KMap.assign job.opAttrs (ascii "job-name") (0x42, .str fileName)) job.jobAttrs [])
  doPrint env env.reqId job f m

/-- ippprinter.cpp 85-126 -/
def transmit (env : Env) (p : Printer) (job : PrintJob) (f : ConvertFun) (fileName : Bytes) (ops : List Int) : Act (Option RunError) :=
  if job.oneStage = false ∧ ops.contains 0x0005 = true ∧ ops.contains 0x0006 = true then createAndSend env p job f fileName
  else printJob env p job f fileName

/-- ippprinter.cpp 79-127 -/
def deliver (env : Env) (p : Printer) (job : PrintJob) (f : ConvertFun) (fileName : Bytes) (ops : List Int) : Act (Option RunError) :=
  if Text.startsWith p.addr (ascii "file://") then printToFile env job f fileName else transmit env p job f fileName ops

/-- ippprinter.cpp 68-127: what follows `finalize` -/
def afterFinalize (env : Env) (p : Printer) (input fileName : Bytes) (ops : List Int) :
    Option JobError × PrintJob → Act (Option RunError)
  | (some e, _) => pure (some (.job e))
  | (none, job) =>
    match getConvertFun env.pipelines input job.targetFormat with
    | none => pure (some .noConversion)
    | some f => deliver env p job f fileName ops

/-- ippprinter.cpp 64-127: the `try` block -/
def tryRun (env : Env) (p : Printer) (job : PrintJob) (input fileName : Bytes) (pages : Int) : Act (Option RunError) := do
  let ops ← Act.lift (intList p.attrs (ascii "operations-supported"))
  let r ← Act.lift (finalize env.pipelines input pages job)
  afterFinalize env p input fileName ops r

/-- ippprinter.cpp 129-133 -/
def catchAll (x : Act (Option RunError)) : Act (Option RunError) :=
  match x.out with
  | .throws e => ⟨x.events, .ok (some (.exception e))⟩
  | _ => x

/-- `runJob`, ippprinter.cpp 59-134, with the parameter `job`; `fileName` is the last part of the name of the file (line 65). -/
def runJobWith (env : Env) (p : Printer) (job : PrintJob) (input fileName : Bytes) (pages : Int) : Act (Option RunError) :=
  catchAll (tryRun env p job input fileName pages)

/-- A call of `runJob` with a variable: the parameter is a copy. -/
def runJob (env : Env) (p : Printer) (job : PrintJob) (input fileName : Bytes) (pages : Int) : Act (Option RunError) :=
  runJobWith env p job.copy input fileName pages

end Verif.Printer
