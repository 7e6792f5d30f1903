import Verif.Deliver.ClientProps
import Verif.Printer.FileProps
import Verif.Convert.Files

/-!
# Property C97: `ippclient print` with a document from the standard input; property C76 for printers that are files
-/

namespace Verif.Deliver

open Ipp.Spec Job Job.Spec Printer Printer.Spec Client Client.Spec Verif.Deliver.Spec

/-! ## Model -/

/-- What ippclient runs on: the files with the standard input, and poppler with cairo for a PDF file (none: the file is not there). -/
structure Machine where
  fs : Convert.Files
  lib : Option Bytes → Pdf.Library

/-- The conversion functions read their input by `InBinFile` (converter.h 46, 63, 73), for which "-" is the standard input. The name of a PDF file has been made an
absolute path by ippclient (ippclient.cpp 494), so that it is not "-" (pdf2printable.cpp 78), but the path of a file with that name. -/
def Machine.tools (m : Machine) (t : Tools) : Tools := { t with read := m.fs.input, pdf := fun name => m.lib (m.fs.read name) }

/-- The surroundings of ippclient: minimime.cpp 24 reads files only; the number of pages is that of a file (ippclient.cpp 494-504). -/
def Machine.world (m : Machine) (t : Tools) (w : World) (inFile : Bytes) : World :=
  { w with
    env := { w.env with convert := convert (m.tools t) inFile, pipelines := defaultPipelines }
    files := { w.files with read := m.fs.read }
    pdfPages := fun name => (m.lib (m.fs.read name)).pages.map Int.ofNat }

/-! ## C97 -/

/-- C97 in full: what is printed from the standard input is what is printed of a file with the same content. (The name of the job is left out: its attributes
may be others.) -/
def C97_full : Prop :=
  ∀ (m : Machine) (t : Tools) (w : World) (p : Printer) (o : Options) (mime inFile : Bytes) (e : End), Typed p → o.mimeType = some mime → ¬ IsFile p →
    inFile ≠ ascii "-" → m.fs.read inFile = some m.fs.stdin → (printCommand (m.world t w inFile) p o inFile).out = .ok e → e.code = 0 →
    ∃ e', (printCommand (m.world t w (ascii "-")) p o (ascii "-")).out = .ok e' ∧ e'.code = 0 ∧
      document (printCommand (m.world t w (ascii "-")) p o (ascii "-")).events = document (printCommand (m.world t w inFile) p o inFile).events

theorem stdin_input (m : Machine) (t : Tools) : (m.tools t).read (ascii "-") = some m.fs.stdin := rfl

/-- **C97, files that are sent as they are.** When `ippclient print --mime-type … -` ends with 0, for a type other than PDF, JPEG and plain text, then what was sent is what came in by the
standard input, byte for byte. Missing: as for `C91_upload_partial`; PDF (`C97_pdf_false`). -/
theorem C97_upload_partial (m : Machine) (t : Tools) (w : World) (p : Printer) (o s : Options) (input : Bytes)
    (hsaved : Starts (m.world t w (ascii "-")) p o s) (hty : o.mimeType = some input)
    (hi : input ≠ ascii "application/pdf" ∧ input ≠ ascii "image/jpeg" ∧ input ≠ ascii "text/plain") (hfile : ¬ IsFile p)
    (e : End) (he : (printCommand (m.world t w (ascii "-")) p o (ascii "-")).out = .ok e) (hcode : e.code = 0) :
    document (printCommand (m.world t w (ascii "-")) p o (ascii "-")).events = m.fs.stdin := by
  have h := C91_upload_partial (m.tools t) (m.world t w (ascii "-")) p o (ascii "-") input rfl rfl hsaved (.inl hty) hi hfile e he hcode
  rw [stdin_input] at h
  exact (Option.some.inj h).symm

/-- **C97, plain text** from the standard input is sent with CR LF for every line end (twice where it was CR LF already, C19). -/
theorem C97_text_partial (m : Machine) (t : Tools) (w : World) (p : Printer) (o s : Options)
    (hsaved : Starts (m.world t w (ascii "-")) p o s) (hty : o.mimeType = some (ascii "text/plain")) (hfile : ¬ IsFile p)
    (first : Bytes) (rest : List (Text.LineEnd × Bytes)) (hl : Text.Lines first rest) (hin : m.fs.stdin = Text.textOf first rest)
    (e : End) (he : (printCommand (m.world t w (ascii "-")) p o (ascii "-")).out = .ok e) (hcode : e.code = 0) :
    document (printCommand (m.world t w (ascii "-")) p o (ascii "-")).events = Text.producedText first rest :=
  C91_text_partial (m.tools t) (m.world t w (ascii "-")) p o (ascii "-") rfl rfl hsaved (.inl hty) hfile first rest hl
    (by rw [stdin_input, hin]) e he hcode

/-- **C97, JPEG** from the standard input: the same picture is sent. Missing: the colors (C80). -/
theorem C97_jpeg_partial (m : Machine) (t : Tools) (hl : Jpeg.Spec.Sound t.jpeg) (hb : t.buffer ≠ []) (w : World) (p : Printer) (o s : Options)
    (hsaved : Starts (m.world t w (ascii "-")) p o s) (hty : o.mimeType = some (ascii "image/jpeg")) (hfile : ¬ IsFile p)
    (pic : Jpeg.Picture) (hpic : Jpeg.Spec.Reads t.jpeg m.fs.stdin pic)
    (e : End) (he : (printCommand (m.world t w (ascii "-")) p o (ascii "-")).out = .ok e) (hcode : e.code = 0) :
    ∃ pic', Jpeg.Spec.Reads t.jpeg (document (printCommand (m.world t w (ascii "-")) p o (ascii "-")).events) pic' ∧ pic'.critical = pic.critical ∧
      pic'.ids = pic.ids ∧ pic'.coefs = pic.coefs ∧ pic'.markers.Sublist pic.markers :=
  C91_jpeg_partial (m.tools t) hl hb (m.world t w (ascii "-")) p o (ascii "-") rfl rfl hsaved (.inl hty) hfile m.fs.stdin pic
    (stdin_input m t) hpic e he hcode

/-- **C97, without a type** the program ends with 1 (or an exception from before), and nothing is sent: what comes in is not looked at. -/
theorem C97_untyped (m : Machine) (t : Tools) (w : World) (p : Printer) (o : Options) (hty : o.mimeType = none) :
    (printCommand (m.world t w (ascii "-")) p o (ascii "-")).events = [] ∧
      ∀ e, (printCommand (m.world t w (ascii "-")) p o (ascii "-")).out = .ok e → e.code = 1 := by
  have ht : inputType (m.world t w (ascii "-")) o (ascii "-") = none := by unfold inputType; rw [hty]; rfl
  have hp : ∀ r, prepare (m.world t w (ascii "-")) p o (ascii "-") = .ok r → r = none := by
    intro r hr
    unfold prepare at hr
    obtain ⟨j, _, hr⟩ := Outcome.bind_eq_ok.mp hr
    obtain ⟨j, _, hr⟩ := Outcome.bind_eq_ok.mp hr
    rw [ht] at hr
    cases hr; rfl
  unfold printCommand
  cases hx : prepare (m.world t w (ascii "-")) p o (ascii "-") with
  | ok r =>
    rw [hp r hx, lift_bind_ok]
    exact ⟨rfl, fun e he => by cases he; rfl⟩
  | throws x => exact ⟨rfl, fun e he => by cases he⟩
  | ub => exact ⟨rfl, fun e he => by cases he⟩
  | hang => exact ⟨rfl, fun e he => by cases he⟩

/-- **C97, where it fails.** A PDF document can not be printed from the standard input: whatever comes in, unless there is a file named `-` the program ends with 1 (or an
exception from before), and nothing is sent. -/
theorem C97_pdf_false (m : Machine) (hlib : (m.lib none).pages = none) (hno : m.fs.read (ascii "-") = none) (t : Tools) (w : World) (p : Printer) (o : Options)
    (hty : o.mimeType = some (ascii "application/pdf")) :
    (printCommand (m.world t w (ascii "-")) p o (ascii "-")).events = [] ∧
      ∀ e, (printCommand (m.world t w (ascii "-")) p o (ascii "-")).out = .ok e → e.code = 1 := by
  have ht : inputType (m.world t w (ascii "-")) o (ascii "-") = some pdf := by unfold inputType; rw [hty]; rfl
  have hp : ∀ j t', prepare (m.world t w (ascii "-")) p o (ascii "-") = .ok (some (j, t')) → t' = pdf := by
    intro j t' hr
    unfold prepare at hr
    obtain ⟨j1, _, hr⟩ := Outcome.bind_eq_ok.mp hr
    obtain ⟨j2, _, hr⟩ := Outcome.bind_eq_ok.mp hr
    rw [ht] at hr
    obtain ⟨j3, _, hr⟩ := Outcome.bind_eq_ok.mp hr
    cases j3 with
    | none => cases hr
    | some j3 => cases hr; rfl
  have hc : countPages (m.world t w (ascii "-")) pdf (ascii "-") = none := by
    unfold countPages
    rw [if_pos rfl]
    show ((m.lib (m.fs.read (ascii "-"))).pages.map Int.ofNat) = none
    rw [hno, hlib]; rfl
  unfold printCommand
  cases hx : prepare (m.world t w (ascii "-")) p o (ascii "-") with
  | ok r =>
    rw [lift_bind_ok]
    cases r with
    | none => exact ⟨rfl, fun e he => by cases he; rfl⟩
    | some r =>
      obtain ⟨j, t'⟩ := r
      obtain rfl := hp j t' hx
      unfold launch
      simp only [hc]
      exact ⟨rfl, fun e he => by cases he; rfl⟩
  | throws x => exact ⟨rfl, fun e he => by cases he⟩
  | ub => exact ⟨rfl, fun e he => by cases he⟩
  | hang => exact ⟨rfl, fun e he => by cases he⟩

/-! ## C76, printers that are files -/

/-- A file does not need a request, so neither its number matters, nor whether the number of the job is to be shown. -/
theorem file_request (env : Env) (k : Nat) (b : Bool) {p : Printer} (hf : IsFile p) (job : PrintJob) (input name : Bytes) (pages : Int) :
    runJob { env with reqId := k, showJobId := b } p job input name pages = runJob env p job input name pages := by
  have hd : ∀ env' j f ops, deliver env' p j f name ops = printToFile env' j f name := by
    intro env' j f ops
    unfold deliver
    rw [if_pos ((startsWith_file p).mpr hf)]
  unfold runJob runJobWith tryRun
  have ha : ∀ ops, afterFinalize { env with reqId := k, showJobId := b } p input name ops = afterFinalize env p input name ops := by
    intro ops
    funext ⟨e, j⟩
    cases e with
    | some e => rfl
    | none =>
      simp only [afterFinalize, hd]
      rfl
  simp only [ha]

/-- **C76, printers that are files.** What `ippclient print` sends to a printer that takes it, for a format whose files have a usual ending: the same command with a file in place of the
printer, from which the same attributes are read, ends with 0 too, saves the same settings, and makes one file, named after the document and its format, that has what the
printer gets. -/
theorem C76_file_partial (w : World) (p : Printer) (addr : Bytes) (o : Options) (inFile t : Bytes) {s : Options} (hsaved : Starts w p o s)
    (hty : TypeIs w o inFile t) (hreal : ¬ IsFile p) (hfake : ascii "file://" <+: addr)
    (e : End) (he : (printCommand w p o inFile).out = .ok e) (hcode : e.code = 0) :
    ∃ (job : PrintJob) (pages : Option Ipp.Value) (n : Int) (j' : PrintJob), PagesGive (over o s) pages ∧ Become (wanted (over o s) pages) [] job.jobAttrs ∧ Counted w inFile t n ∧
      finalize w.env.pipelines t n job.copy = .ok (none, j') ∧ ∀ ending, (j'.targetFormat, ending) ∈ endings →
        ∃ e', (printCommand w { p with addr := addr } o inFile).out = .ok e' ∧ e'.code = 0 ∧ e'.store = e.store ∧
          files (printCommand w { p with addr := addr } o inFile).events = [(debugName (fileName inFile) ending, document (printCommand w p o inFile).events)] ∧
          told (printCommand w { p with addr := addr } o inFile).events = [debugName (fileName inFile) ending] := by
  obtain ⟨j, hj⟩ : ∃ j, createJob p = .ok j := by
    obtain ⟨r, hr⟩ : ∃ r, prepare w p o inFile = .ok r := by
      unfold printCommand at he
      cases hp : prepare w p o inFile with
      | ok r => exact ⟨r, rfl⟩
      | throws x => rw [hp] at he; cases he
      | ub => rw [hp] at he; cases he
      | hang => rw [hp] at he; cases he
    unfold prepare at hr
    obtain ⟨j, hj, _⟩ := Outcome.bind_eq_ok.mp hr
    exact ⟨j, hj⟩
  obtain ⟨j0, ps, hr, hc, hs, hps, hb0⟩ := started hj hsaved
  have hn := not_refused hj hr hc hs he hcode
  obtain ⟨job, pages, hp, hpages, hbec, _, hjob⟩ := C75_set w p o inFile t j j0 hj hr hc hs hty hn.1 hn.2
  have e1 : printCommand w p o inFile = launch w p o inFile (some (job, t)) := by
    unfold printCommand
    rw [hp, lift_bind_ok]
  have e2 : printCommand w { p with addr := addr } o inFile = launch w { p with addr := addr } o inFile (some (job, t)) := by
    have hp : prepare w { p with addr := addr } o inFile = .ok (some (job, t)) := hp
    unfold printCommand
    rw [hp, lift_bind_ok]
  rw [e1] at he ⊢
  rw [e2]
  obtain ⟨n, store, hcount, hsave, hrun, hstore, hev⟩ := launch_fine he hcode
  obtain ⟨j', f, hf, _⟩ := C57_document _ p job t (fileName inFile) n hreal hrun
  refine ⟨job, _, n, j', pages_over hpages hps, become_over hb0 hbec, counted hcount, hf, fun ending hend => ?_⟩
  have hsame := C89_same_partial _ p addr job t (fileName inFile) n hreal hfake hrun hf hend
  obtain ⟨k1, k2, k3⟩ := hsame
  have hm : ∀ k, runJob { w.env with reqId := k, showJobId := o.printJobId } { p with addr := addr } job t (fileName inFile) n =
      runJob { w.env with reqId := nextId w p, showJobId := o.printJobId } { p with addr := addr } job t (fileName inFile) n := by
    intro k
    rw [file_request w.env k o.printJobId (p := { p with addr := addr }) hfake, file_request w.env (nextId w p) o.printJobId (p := { p with addr := addr }) hfake]
  rw [hev]
  have hl : launch w { p with addr := addr } o inFile (some (job, t)) =
      (do let r ← runJob { w.env with reqId := nextId w p, showJobId := o.printJobId } { p with addr := addr } job t (fileName inFile) n
          return { endOf w r with store := store }) := by
    unfold launch
    simp only [hcount]
    unfold submit
    rw [hsave, lift_bind_ok]
    simp only [if_true, hm]
  rw [hl]
  generalize runJob { w.env with reqId := nextId w p, showJobId := o.printJobId } { p with addr := addr } job t (fileName inFile) n = x at k1 k2 k3 ⊢
  obtain ⟨ev, out⟩ := x
  have k1 : out = .ok none := k1
  subst k1
  have he : ((⟨ev, .ok none⟩ : Act (Option RunError)) >>= fun r => (pure { endOf w r with store := store } : Act End)) = ⟨ev ++ [], .ok { fine w with store := store }⟩ := rfl
  rw [he, List.append_nil]
  exact ⟨_, rfl, rfl, hstore.symm, k2, k3⟩

/-! ## Examples -/

/-- a machine with a PDF document of three pages in a file, and something in the standard input -/
def exMachine (stdin : Bytes) : Machine :=
  { fs := { read := fun n => if n = ascii "a.pdf" then some (ascii "%PDF-1.7") else none, writable := fun _ => true, stdin := stdin },
    lib := fun c => { Pdf.exLibrary with pages := c.bind (fun _ => Pdf.exLibrary.pages) } }

/-- whether `print` ends with 0, and what it has sent -/
def exPrinted (m : Machine) (formats : List Bytes) (o : Options) (inFile : Bytes) : Bool × Bytes :=
  let r := printCommand (m.world exTools (exWorld (ascii "-")) inFile) (exClientPrinter formats) o inFile
  (match r.out with
    | .ok e => decide (e.code = 0)
    | _ => false, document r.events)

/-- A picture, a text and a JPEG file come in and are sent. -/
example : exPrinted (exMachine [0x89, 80, 78, 71]) [png] { mimeType := some png } (ascii "-") = (true, [0x89, 80, 78, 71]) ∧
    exPrinted (exMachine (ascii "a\nb")) [ascii "text/plain"] { mimeType := some (ascii "text/plain") } (ascii "-") = (true, ascii "a\r\nb") ∧
    (exPrinted (exMachine [255, 216, 1, 217]) [jpeg] { mimeType := some jpeg } (ascii "-")).1 = true ∧
    Starts ((exMachine []).world exTools (exWorld (ascii "-")) (ascii "-")) (exClientPrinter [png]) { mimeType := some png } {} := by
  refine ⟨by decide +kernel, by decide +kernel, by decide +kernel, .inl ⟨.inr (.inl (by decide +kernel)), rfl⟩⟩

/-- A file is printed, the same as standard input is not. -/
example : ((exMachine (ascii "%PDF-1.7")).lib none).pages = none ∧ (exMachine (ascii "%PDF-1.7")).fs.read (ascii "-") = none ∧
    (exPrinted (exMachine (ascii "%PDF-1.7")) [pwg] { exOptions with mimeType := some pdf } (ascii "a.pdf")).1 = true ∧
    (exPrinted (exMachine (ascii "%PDF-1.7")) [pwg] { exOptions with mimeType := some pdf } (ascii "-")).1 = false := by
  decide +kernel

/-- So the full claim does not hold. -/
theorem C97_false : ¬ C97_full := by
  intro h
  have hk : (match (printCommand ((exMachine (ascii "%PDF-1.7")).world exTools (exWorld (ascii "-")) (ascii "a.pdf")) (exClientPrinter [pwg]) { exOptions with mimeType := some pdf } (ascii "a.pdf")).out with
      | .ok e => decide (e.code = 0)
      | _ => false) = true := by decide +kernel
  split at hk
  case h_2 => cases hk
  rename_i e he
  obtain ⟨e', h1, h2, _⟩ := h (exMachine (ascii "%PDF-1.7")) exTools (exWorld (ascii "-")) (exClientPrinter [pwg]) { exOptions with mimeType := some pdf } pdf (ascii "a.pdf") e (exClient_typed _) rfl
    (by unfold IsFile; show ¬ ascii "file://" <+: ascii "ipp://x/ipp/print"; decide +kernel) (by decide +kernel) (by decide +kernel) he (of_decide_eq_true hk)
  have := (C97_pdf_false (exMachine (ascii "%PDF-1.7")) (by rfl) (by decide +kernel) exTools (exWorld (ascii "-")) (exClientPrinter [pwg]) { exOptions with mimeType := some pdf } rfl).2 e' h1
  rw [h2] at this
  cases this

/-- Two pages of a PDF document, twice, to a printer and to a file. -/
example : TypeIs (exWorld (ascii "a.pdf")) exOptions (ascii "a.pdf") (ascii "application/pdf") ∧ ¬ IsFile (exClientPrinter [pwg]) ∧ (exSent pwg).1 = true ∧
    (let r := printCommand (exWorld (ascii "a.pdf")) { exClientPrinter [pwg] with addr := ascii "file:///tmp/attrs" } exOptions (ascii "a.pdf")
     (files r.events).map (fun f => (f.1, f.2.length)) = [(ascii "ippclient-debug-a.pdf.pwg", 4 + 4 * 1799)] ∧ told r.events = [ascii "ippclient-debug-a.pdf.pwg"]) := by
  refine ⟨.inr ⟨rfl, by decide +kernel, ascii "%PDF-1.7", .pdf, by decide +kernel, ⟨[37, 80, 68, 70], by decide +kernel, by decide +kernel⟩, rfl⟩, ?_, by decide +kernel, by decide +kernel⟩
  unfold IsFile
  show ¬ ascii "file://" <+: ascii "ipp://x/ipp/print"
  decide +kernel

end Verif.Deliver
