import Verif.Deliver.ClientProps
import Verif.Convert.PdfMachine
import Verif.Client.EndProps
import Verif.Core.DoubleLemmas

/-!
# `ippclient print` with the arithmetic of the machine (C110)

The conversion functions of Verif/Deliver/Model.lean render a PDF file with `Pdf.pdfToPrintable`, which knows no overflow. Here they do it with
`Convert.pdfMachine`: C90, C91 and C101 are carried over to them.
-/

set_option linter.unusedVariables false

namespace Verif.Deliver

open Ipp.Spec Job Job.Spec Printer Printer.Spec Raster Raster.Spec Client Client.Spec Tools.Spec Verif.Deliver.Spec _root_.Verif.Convert Convert.Spec

/-- What there is besides the tools: what new memory has in it, and what poppler and cairo can not do with a file. -/
structure Hardware where
  junk : Nat → Bytes
  limits : Bytes → Limits

/-- converter.h 36-39, with `pdf_to_printable` as in Verif/Convert/PdfMachine.lean -/
def machineRender (m : Hardware) (t : Tools) (inFile : Bytes) (j : PrintJob) : List Bytes × Outcome (Option Bytes) :=
  let r := pdfMachine m.junk t.lum (m.limits inFile) (t.pdf inFile) t.taken j.paper (printParams j)
  (Pdf.blocks r.events, r.result.bind (fun e => .ok (e.map t.text)))

/-- The conversion functions, converter.h 34-88 -/
def machineConvert (m : Hardware) (t : Tools) (inFile : Bytes) : ConvertFun → PrintJob → List Bytes × Outcome (Option Bytes)
  | .pdf2Printable, j => machineRender m t inFile j
  | f, j => convert t inFile f j

namespace Spec

/-- New memory has the size that was asked for, and images have at most the size that cairo allows. -/
structure Real (m : Hardware) : Prop where
  junk : ∀ n, (m.junk n).length = n
  limit : ∀ f, (m.limits f).limit ≤ 32767

/-- The sizes of the job have a meaning (see `Meant`), and the pages that it asks for are not damaged. -/
structure Renders (m : Hardware) (t : Tools) (inFile : Bytes) (j : PrintJob) : Prop where
  meant : Meant j.paper (printParams j)
  loads : ∀ pages seq, (t.pdf inFile).pages = some pages → j.params.pageSequence pages = .ok seq → ∀ n ∈ seq, n ≠ 0 → (m.limits inFile).loads n = true

/-- What is in a page header besides sizes fits its field. -/
structure Labels (p : Params) : Prop where
  resW : p.hwResW < 2 ^ 32
  resH : p.hwResH < 2 ^ 32
  position : p.mediaPosition < 50
  mediaType : p.mediaType.length ≤ 64 ∧ ∀ b ∈ p.mediaType, b ≠ 0
  sizeName : p.paperSizeName.length ≤ 64 ∧ ∀ b ∈ p.paperSizeName, b ≠ 0

/-- The job that `print` makes of a PDF file is one that can be rendered. -/
def JobRenders (m : Hardware) (t : Tools) (w : World) (p : Printer) (o : Options) (inFile : Bytes) : Prop :=
  ∀ job n j, prepare w p o inFile = .ok (some (job, pdf)) → w.pdfPages inFile = some n → finalize w.env.pipelines pdf n job.copy = .ok (none, j) → Renders m t inFile j

end Spec

/-! ## No difference -/

/-- The tools with which cairo fails if the page is too large. -/
def Tools.limit (t : Tools) (limit : Nat) (p : Params) : Tools := { t with pdf := fun f => limited limit p (t.pdf f) }

theorem sized_paper (j : PrintJob) : Sized j.paper (printParams j) := ⟨rfl, rfl, rfl, rfl⟩

theorem machine_same {m : Hardware} (hm : Real m) {t : Tools} {inFile : Bytes} (hdraw : ∀ k sc img, ((t.pdf inFile).draw k sc img).length = img.length) {j : PrintJob} {f : ConvertFun}
    (h : f = .pdf2Printable → Renders m t inFile j) : machineConvert m t inFile f j = convert (t.limit (m.limits inFile).limit (printParams j)) inFile f j := by
  cases f with
  | pdf2Printable =>
    have h := h rfl
    show machineRender m t inFile j = renderPdf _ inFile j
    unfold machineRender renderPdf
    rw [C108_same_partial hm.junk t.lum (hm.limit inFile) hdraw t.taken (sized_paper j) h.meant h.loads]
    rfl
  | baselinify => rfl
  | justUpload => rfl
  | fixupText => rfl
  | user n => rfl

/-- Of the conversion functions only the one that is chosen matters, and only for the job that is sent. -/
theorem doPrint_congr {env : Env} {c : ConvertFun → PrintJob → List Bytes × Outcome (Option Bytes)} {j : PrintJob} {f : ConvertFun} (h : env.convert f j = c f j) (n : Nat) (m : Ipp.Msg) :
    doPrint env n j f m = doPrint { env with convert := c } n j f m := by
  unfold doPrint convertAndAwait
  simp only [h]

theorem deliver_congr {env : Env} {c : ConvertFun → PrintJob → List Bytes × Outcome (Option Bytes)} {p : Printer} {j : PrintJob} {f : ConvertFun} {name : Bytes} {ops : List Int}
    (h : env.convert f j = c f j) : deliver env p j f name ops = deliver { env with convert := c } p j f name ops := by
  have hd := doPrint_congr h
  have hs : ∀ id, sendDocument env p j f id = sendDocument { env with convert := c } p j f id := by
    intro id
    unfold sendDocument
    simp only [hd]
  have ha : ∀ r, afterCreate env p j f r = afterCreate { env with convert := c } p j f r := by
    intro r
    unfold afterCreate
    simp only [hs]
  have hr : ∀ r, createResult env p j f r = createResult { env with convert := c } p j f r := by
    intro r
    cases r with
    | error e => rfl
    | ok r => exact ha r
  have hc : createAndSend env p j f name = createAndSend { env with convert := c } p j f name := by
    unfold createAndSend
    simp only [hr]
  have hp : printJob env p j f name = printJob { env with convert := c } p j f name := by
    unfold printJob
    simp only [hd]
  have hf : printToFile env j f name = printToFile { env with convert := c } j f name := by
    unfold printToFile
    simp only [h]
  unfold deliver transmit
  rw [hc, hp, hf]

theorem runJob_congr {env : Env} {c : ConvertFun → PrintJob → List Bytes × Outcome (Option Bytes)} {p : Printer} {job : PrintJob} {input name : Bytes} {pages : Int}
    (h : ∀ j' f, finalize env.pipelines input pages job.copy = .ok (none, j') → getConvertFun env.pipelines input j'.targetFormat = some f → env.convert f j' = c f j') :
    runJob env p job input name pages = runJob { env with convert := c } p job input name pages := by
  have ha : ∀ ops r, finalize env.pipelines input pages job.copy = .ok r → afterFinalize env p input name ops r = afterFinalize { env with convert := c } p input name ops r := by
    intro ops r hf
    obtain ⟨e, j'⟩ := r
    unfold afterFinalize
    cases e with
    | some e => rfl
    | none =>
      simp only
      cases hg : getConvertFun env.pipelines input j'.targetFormat with
      | none => rfl
      | some f => exact deliver_congr (h j' f hf hg)
  have key : tryRun env p job.copy input name pages = tryRun { env with convert := c } p job.copy input name pages := by
    unfold tryRun
    refine congrArg (fun k => Act.lift (intList p.attrs (ascii "operations-supported")) >>= k) (funext fun ops => ?_)
    simp only
    generalize hf : finalize env.pipelines input pages job.copy = r at ha ⊢
    cases r with
    | ok r => rw [lift_bind_ok, lift_bind_ok]; exact ha ops r rfl
    | throws e => rfl
    | ub => rfl
    | hang => rfl
  unfold runJob runJobWith
  rw [key]

/-! ## Pages that are too large -/

/-- If there is a page to be drawn and the pages are rendered without an error, they are not too large. -/
theorem not_oversized {lum : Pdf.Luminosity} {lib : Pdf.Library} {taken : List Bytes → Bool} {paper : Paper} {p : Params} {limit : Nat} (hf : p.format = .PWG ∨ p.format = .URF)
    (h : (Pdf.pdfToPrintable lum (limited limit p lib) taken paper p).result = .ok none) {m : Nat} {seq : List Nat} (hm : lib.pages = some m) (hs : p.pageSequence m = .ok seq)
    (hne : seq ≠ []) : ¬ Oversized limit p := by
  intro ho
  cases seq with
  | nil => exact hne rfl
  | cons n rest =>
    have hloop : ∀ hdr total, (Pdf.pagesLoop lum (limited limit p lib) taken paper p total (n :: rest) 0 [] hdr []).result = .ok (some .cairo) := by
      intro hdr total
      unfold Pdf.pagesLoop
      simp only [limited, ho, decide_true, Bool.true_or, if_true]
    unfold Pdf.pdfToPrintable at h
    split at h
    · cases h
    · have hm' : (limited limit p lib).pages = some m := hm
      rw [hm'] at h
      simp only [hs] at h
      rcases hf with hf | hf <;> rw [hf] at h <;> simp only [hloop] at h <;> cases h

/-- A page with an image and with labels that fit. -/
theorem fits_of {limit : Nat} (hl : limit ≤ 32767) {j : PrintJob} (hlab : Labels (printParams j)) (hf : (printParams j).format = .PWG ∨ (printParams j).format = .URF)
    (ho : ¬ Oversized limit (printParams j)) : Fits (printParams j) := by
  have h1 : 0 < (printParams j).hwResW := Nat.pos_of_ne_zero (fun h => ho (.inl h))
  have h2 : 0 < (printParams j).hwResH := Nat.pos_of_ne_zero (fun h => ho (.inr (.inl h)))
  have h3 : ¬ (limit < (printParams j).widthPx ∨ limit < (printParams j).heightPx) := fun h => ho (.inr (.inr ⟨hf, h⟩))
  have hw : (printParams j).widthPx ≤ 32767 := by omega
  have hh : (printParams j).heightPx ≤ 32767 := by omega
  have hrow := rowBytes_le (printParams j).colorMode (printParams j).widthPx
  exact ⟨by omega, by omega, by omega, hlab.resW, hlab.resH, points_lt h1 hw, points_lt h2 hh, hlab.position, hlab.mediaType, hlab.sizeName⟩

/-- A run with the machine that ends well is one with tools that have a limit. -/
theorem machine_run {m : Hardware} (hm : Real m) {t : Tools} {inFile : Bytes} {env : Env} (hconv : env.convert = machineConvert m t inFile) (hpl : env.pipelines = defaultPipelines)
    {p : Printer} (hfile : ¬ IsFile p) {job : PrintJob} {name : Bytes} {count : Int} (hdraw : ∀ k sc img, ((t.pdf inFile).draw k sc img).length = img.length)
    (hren : ∀ j', finalize defaultPipelines pdf count job.copy = .ok (none, j') → Renders m t inFile j') (h : (runJob env p job pdf name count).out = .ok none) :
    ∃ j', finalize defaultPipelines pdf count job.copy = .ok (none, j') ∧
      runJob env p job pdf name count = runJob { env with convert := convert (t.limit (m.limits inFile).limit (printParams j')) inFile } p job pdf name count ∧
      (j'.targetFormat = pwg ∨ j'.targetFormat = urf → ((printParams j').format = .PWG ∨ (printParams j').format = .URF) ∧ ∃ k seq, (t.pdf inFile).pages = some k ∧
        j'.params.pageSequence k = .ok seq ∧ (seq ≠ [] → ¬ Oversized (m.limits inFile).limit (printParams j'))) := by
  obtain ⟨j', f, h1, h2, h3, h4, _⟩ := C57_document env p job pdf name count hfile h
  rw [hpl] at h1 h2
  have same : ∀ f, machineConvert m t inFile f j' = convert (t.limit (m.limits inFile).limit (printParams j')) inFile f j' := fun f => machine_same hm hdraw (fun _ => hren j' h1)
  refine ⟨j', h1, runJob_congr (fun j f' g1 g2 => ?_), fun ht => ?_⟩
  · rw [hpl, h1] at g1
    cases g1
    rw [hconv, same]
  · rw [default_raster ht] at h2
    cases h2
    have hf : (printParams j').format = .PWG ∨ (printParams j').format = .URF := by
      rcases ht with ht | ht
      · exact .inl (((C34_format _ _ _ _ _ h1).1).2 ⟨rfl, ht⟩)
      · exact .inr (((C34_format _ _ _ _ _ h1).2).2 ⟨rfl, ht⟩)
    rw [hconv, same] at h3
    have hr := render_ok h3
    obtain ⟨k, hk⟩ : ∃ k, (t.pdf inFile).pages = some k := by
      cases hk : (t.pdf inFile).pages with
      | some k => exact ⟨k, rfl⟩
      | none =>
        unfold Pdf.pdfToPrintable at hr
        have hk' : ((t.limit (m.limits inFile).limit (printParams j')).pdf inFile).pages = none := hk
        rw [hk'] at hr
        split at hr <;> cases hr
    obtain ⟨seq, hs⟩ := Pdf.pageSequence_ok j'.params k
    exact ⟨hf, k, seq, hk, hs, not_oversized hf hr hk hs⟩

theorem job_renders {m : Hardware} {t : Tools} {w : World} {p : Printer} {o : Options} {inFile : Bytes} (hren : JobRenders m t w p o inFile) (hpl : w.env.pipelines = defaultPipelines)
    {job : PrintJob} {count : Int} (hp : prepare w p o inFile = .ok (some (job, pdf))) (hcount : w.pdfPages inFile = some count) (j' : PrintJob)
    (h : finalize defaultPipelines pdf count job.copy = .ok (none, j')) : Renders m t inFile j' := hren job count j' hp hcount (by rw [hpl]; exact h)

/-! ## C110: what is sent -/

theorem surface_limited (limit : Nat) (p : Params) (lib : Pdf.Library) (done ds : List Pdf.Drawn) :
    Spec.surfaceBytes (limited limit p lib) done ds = Spec.surfaceBytes lib done ds := by
  induction ds generalizing done with
  | nil => rfl
  | cons d ds ih => simp only [Spec.surfaceBytes, ih]; rfl

/-- **C110, PWG.** C91 without its conditions on sizes, and with the arithmetic of the machine: when `ippclient print` of a PDF file ends with 0 and was sent as PWG raster, the page is not
larger than the largest image of cairo, and what was sent is a PWG raster file of the pages asked for, in all the copies. Missing: sizes without a meaning and damaged pages
(`JobRenders`), texts that do not fit their field. -/
theorem C110_pwg_partial {m : Hardware} (hm : Real m) (t : Tools) (w : World) (p : Printer) (o : Options) (inFile : Bytes) (hconv : w.env.convert = machineConvert m t inFile)
    (hpl : w.env.pipelines = defaultPipelines) {s : Options} (hsaved : Starts w p o s) (hty : TypeIs w o inFile (ascii "application/pdf")) (hfile : ¬ IsFile p)
    (n : Int) (hc : CopiesAsked p (over o s) n) (hdraw : ∀ k sc img, ((t.pdf inFile).draw k sc img).length = img.length)
    (hpages : ∀ m, (t.pdf inFile).pages = some m → m < 2147483647) (hren : JobRenders m t w p o inFile)
    (e : End) (he : (printCommand w p o inFile).out = .ok e) (hcode : e.code = 0) :
    ∃ (job : PrintJob) (pages : Option Ipp.Value) (count : Int) (j' : PrintJob), PagesGive (over o s) pages ∧ Become (wanted (over o s) pages) [] job.jobAttrs ∧ w.pdfPages inFile = some count ∧
      finalize defaultPipelines pdf count job.copy = .ok (none, j') ∧ (j'.targetFormat = pwg → Labels (printParams j') →
      ∃ k seq, (t.pdf inFile).pages = some k ∧ j'.params.pageSequence k = .ok seq ∧ (seq ≠ [] → ¬ Oversized (m.limits inFile).limit (printParams j') ∧ Comes p (over o s) n k j'.jobAttrs seq ∧
        ∃ bmps outs, All2 (fun q bmp => Bitmap t (printParams j') (Pdf.Spec.picture (t.pdf inFile) j'.paper (printParams j') q) bmp) seq bmps ∧
        readRaster (document (printCommand w p o inFile).events) = .ok (.pwg outs) ∧ All2 ShowsPwg (Pdf.numbered (printParams j') 0 bmps) outs ∧
        Raster.Spec.PwgDocument (Pdf.numbered (printParams j') 0 bmps) (document (printCommand w p o inFile).events))) := by
  obtain ⟨env, job, pages, count, h1, h2, h3, h4, h5, h6, h7, h8, h9, h10⟩ := job_run hsaved hty he hcode
  have hcount : w.pdfPages inFile = some count := by
    rcases h5 with ⟨_, h⟩ | ⟨h, _⟩
    · exact h
    · exact absurd rfl h
  obtain ⟨j', g1, g2, g3⟩ := machine_run hm (h6.trans hconv) (h7.trans hpl) hfile hdraw (job_renders hren hpl h10 hcount) h8
  have h9 : (printCommand w p o inFile).events = (runJob env p job pdf (fileName inFile) count).events := h9
  have h8' : (runJob env p job pdf (fileName inFile) count).out = .ok none := h8
  rw [g2] at h8'
  refine ⟨job, pages, count, j', h1, h2, hcount, g1, fun ht hlab => ?_⟩
  obtain ⟨hf, k, seq, hk, hs, ho⟩ := g3 (.inl ht)
  refine ⟨k, seq, hk, hs, fun hne => ⟨ho hne, ?_⟩⟩
  obtain ⟨hr, hnamed⟩ := named_asked h1 (ranges_asked h2)
  obtain ⟨j2, q1, q2⟩ := C90_pwg (t.limit (m.limits inFile).limit (printParams j')) inFile { env with convert := _ } rfl (h7.trans hpl) p hfile job h4 hr n (copies_asked hc h2 h3)
    (fileName inFile) count hdraw h8'
  rw [g1] at q1
  cases q1
  obtain ⟨k', seq', bmps, outs, k1, k2, k3, k4, k5, k6⟩ := q2 ht (fits_of (hm.limit inFile) hlab hf (ho hne))
  have e1 : k' = k := by
    have k1 : (t.pdf inFile).pages = some k' := k1
    rw [hk] at k1
    cases k1; rfl
  subst e1
  have e2 : seq' = seq := by
    have := k2.computed
    rw [hs] at this
    cases this; rfl
  subst e2
  rw [h9, g2]
  exact ⟨comes_of k2 ((finalize_printer g1).trans h3) hnamed (hpages k' hk), bmps, outs, k3, k4, k5, k6⟩

/-- **C110, URF.** Likewise; with the number of pages in the header, if that fits. -/
theorem C110_urf_partial {m : Hardware} (hm : Real m) (t : Tools) (w : World) (p : Printer) (o : Options) (inFile : Bytes) (hconv : w.env.convert = machineConvert m t inFile)
    (hpl : w.env.pipelines = defaultPipelines) {s : Options} (hsaved : Starts w p o s) (hty : TypeIs w o inFile (ascii "application/pdf")) (hfile : ¬ IsFile p)
    (n : Int) (hc : CopiesAsked p (over o s) n) (hdraw : ∀ k sc img, ((t.pdf inFile).draw k sc img).length = img.length)
    (hpages : ∀ m, (t.pdf inFile).pages = some m → m < 2147483647) (hren : JobRenders m t w p o inFile)
    (e : End) (he : (printCommand w p o inFile).out = .ok e) (hcode : e.code = 0) :
    ∃ (job : PrintJob) (pages : Option Ipp.Value) (count : Int) (j' : PrintJob), PagesGive (over o s) pages ∧ Become (wanted (over o s) pages) [] job.jobAttrs ∧ w.pdfPages inFile = some count ∧
      finalize defaultPipelines pdf count job.copy = .ok (none, j') ∧ (j'.targetFormat = urf → Labels (printParams j') →
      ∃ k seq, (t.pdf inFile).pages = some k ∧ j'.params.pageSequence k = .ok seq ∧ (seq ≠ [] → ¬ Oversized (m.limits inFile).limit (printParams j') ∧ Comes p (over o s) n k j'.jobAttrs seq ∧
        (seq.length < 2 ^ 32 → ∃ bmps outs, All2 (fun q bmp => Bitmap t (printParams j') (Pdf.Spec.picture (t.pdf inFile) j'.paper (printParams j') q) bmp) seq bmps ∧
        readRaster (document (printCommand w p o inFile).events) = .ok (.urf seq.length outs) ∧ All2 ShowsUrf (Pdf.numbered (printParams j') 0 bmps) outs ∧
        Raster.Spec.UrfDocument seq.length (Pdf.numbered (printParams j') 0 bmps) (document (printCommand w p o inFile).events)))) := by
  obtain ⟨env, job, pages, count, h1, h2, h3, h4, h5, h6, h7, h8, h9, h10⟩ := job_run hsaved hty he hcode
  have hcount : w.pdfPages inFile = some count := by
    rcases h5 with ⟨_, h⟩ | ⟨h, _⟩
    · exact h
    · exact absurd rfl h
  obtain ⟨j', g1, g2, g3⟩ := machine_run hm (h6.trans hconv) (h7.trans hpl) hfile hdraw (job_renders hren hpl h10 hcount) h8
  have h9 : (printCommand w p o inFile).events = (runJob env p job pdf (fileName inFile) count).events := h9
  have h8' : (runJob env p job pdf (fileName inFile) count).out = .ok none := h8
  rw [g2] at h8'
  refine ⟨job, pages, count, j', h1, h2, hcount, g1, fun ht hlab => ?_⟩
  obtain ⟨hf, k, seq, hk, hs, ho⟩ := g3 (.inr ht)
  refine ⟨k, seq, hk, hs, fun hne => ⟨ho hne, ?_⟩⟩
  obtain ⟨hr, hnamed⟩ := named_asked h1 (ranges_asked h2)
  obtain ⟨j2, q1, q2⟩ := C90_urf (t.limit (m.limits inFile).limit (printParams j')) inFile { env with convert := _ } rfl (h7.trans hpl) p hfile job h4 hr n (copies_asked hc h2 h3)
    (fileName inFile) count hdraw h8'
  rw [g1] at q1
  cases q1
  obtain ⟨k', seq', k1, k2, k3⟩ := q2 ht (fits_of (hm.limit inFile) hlab hf (ho hne))
  have e1 : k' = k := by
    have k1 : (t.pdf inFile).pages = some k' := k1
    rw [hk] at k1
    cases k1; rfl
  subst e1
  have e2 : seq' = seq := by
    have := k2.computed
    rw [hs] at this
    cases this; rfl
  subst e2
  rw [h9, g2]
  exact ⟨comes_of k2 ((finalize_printer g1).trans h3) hnamed (hpages k' hk), k3⟩

/-- **C110, PDF and PostScript.** Likewise: what was sent is what the library writes for the pages asked for. -/
theorem C110_vector_partial {m : Hardware} (hm : Real m) (t : Tools) (w : World) (p : Printer) (o : Options) (inFile : Bytes) (hconv : w.env.convert = machineConvert m t inFile)
    (hpl : w.env.pipelines = defaultPipelines) {s : Options} (hsaved : Starts w p o s) (hty : TypeIs w o inFile (ascii "application/pdf")) (hfile : ¬ IsFile p)
    (n : Int) (hc : CopiesAsked p (over o s) n) (hdraw : ∀ k sc img, ((t.pdf inFile).draw k sc img).length = img.length)
    (hpages : ∀ m, (t.pdf inFile).pages = some m → m < 2147483647) (hren : JobRenders m t w p o inFile)
    (e : End) (he : (printCommand w p o inFile).out = .ok e) (hcode : e.code = 0) :
    ∃ (job : PrintJob) (pages : Option Ipp.Value) (count : Int) (j' : PrintJob), PagesGive (over o s) pages ∧ Become (wanted (over o s) pages) [] job.jobAttrs ∧ w.pdfPages inFile = some count ∧
      finalize defaultPipelines pdf count job.copy = .ok (none, j') ∧ (j'.targetFormat = pdf ∨ j'.targetFormat = postscript →
      ∃ (k : Nat) (seq : List Nat), (t.pdf inFile).pages = some k ∧ seq.Nodup ∧ (∀ q, q ∈ seq ↔ PageAsked (over o s) k q) ∧
        KMap.get? j'.jobAttrs (ascii "copies") = (over o s).copies.map (fun c => (0x21, .int c)) ∧
        document (printCommand w p o inFile).events = Spec.surfaceBytes (t.pdf inFile) [] (seq.map (Pdf.Spec.drawing (t.pdf inFile) j'.paper (printParams j')))) := by
  obtain ⟨env, job, pages, count, h1, h2, h3, h4, h5, h6, h7, h8, h9, h10⟩ := job_run hsaved hty he hcode
  have hcount : w.pdfPages inFile = some count := by
    rcases h5 with ⟨_, h⟩ | ⟨h, _⟩
    · exact h
    · exact absurd rfl h
  obtain ⟨j', g1, g2, _⟩ := machine_run hm (h6.trans hconv) (h7.trans hpl) hfile hdraw (job_renders hren hpl h10 hcount) h8
  have h9 : (printCommand w p o inFile).events = (runJob env p job pdf (fileName inFile) count).events := h9
  have h8' : (runJob env p job pdf (fileName inFile) count).out = .ok none := h8
  rw [g2] at h8'
  obtain ⟨hr, hnamed⟩ := named_asked h1 (ranges_asked h2)
  obtain ⟨j2, q1, q2⟩ := C90_vector (t.limit (m.limits inFile).limit (printParams j')) inFile { env with convert := _ } rfl (h7.trans hpl) p hfile job h4 hr n (copies_asked hc h2 h3)
    (fileName inFile) count h8'
  rw [g1] at q1
  cases q1
  refine ⟨job, pages, count, j', h1, h2, hcount, g1, fun hf => ?_⟩
  obtain ⟨k, seq, k1, k2, k3, k4, k5⟩ := q2 hf
  rw [h9, g2]
  have hk := hpages k k1
  refine ⟨k, seq, k1, List.nodup_iff_count.2 (fun q => ?_), fun q => ?_, ?_, ?_⟩
  · rw [k3 q]
    by_cases ha : PageAsked (over o s) k q
    · rw [(hnamed k q hk).1 ha]
    · rw [(hnamed k q hk).2 ha]; omega
  · rw [← List.count_pos_iff, k3 q]
    by_cases ha : PageAsked (over o s) k q
    · rw [(hnamed k q hk).1 ha]; simp [ha]
    · rw [(hnamed k q hk).2 ha]; simp [ha]
  · have h := h2.1 (([], ascii "copies"), 0x21, (over o s).copies.map .int) (List.mem_of_getElem? (i := 1) rfl)
    have hat : at_ job.jobAttrs ([], ascii "copies") = KMap.get? job.jobAttrs (ascii "copies") := rfl
    rw [hat] at h
    rw [k4, h]
    cases (over o s).copies <;> rfl
  · exact k5.trans (surface_limited _ _ _ _ _)

/-! ## C110: it comes to an end -/

theorem pageHdr_defined (p : Params) (b : Bool) : (pageHdr p b).Defined := by
  unfold pageHdr
  split
  · unfold makePwgHdr
    rw [widthBytes_eq]
    exact trivial
  · unfold makeUrfHdr
    split
    · exact trivial
    · cases hc : urfColorSpace p.colorMode with
      | ok c =>
        cases ht : urfMediaType p.mediaType with
        | ok t => exact trivial
        | throws e => exact trivial
        | ub => unfold urfMediaType at ht; split at ht; cases ht; split at ht <;> cases ht
        | hang => unfold urfMediaType at ht; split at ht; cases ht; split at ht <;> cases ht
      | throws e => exact trivial
      | ub => unfold urfColorSpace at hc; split at hc <;> cases hc
      | hang => unfold urfColorSpace at hc; split at hc <;> cases hc

/-- A bitmap of the right size is encoded, or its header is refused. -/
theorem bmpToPwg_defined (p : Params) (page : Nat) (bmp : Bytes) (hlen : bmp.length = p.heightPx * rowBytes p.colorMode p.widthPx) : (bmpToPwg p page bmp).Defined := by
  unfold bmpToPwg
  refine Ipp.Outcome.bind_defined (pageHdr_defined _ _) (fun hdr _ => ?_)
  rw [widthBytes_eq, Outcome.bind_ok, if_neg (by omega)]
  obtain ⟨n, hn⟩ := rowBytes_units p.colorMode p.widthPx
  obtain ⟨mv, hmv⟩ : ∃ mv, mv = (isBackside p page && p.backVFlip) := ⟨_, rfl⟩
  obtain ⟨mh, hmh⟩ : ∃ mh, mh = (isBackside p page && p.backHFlip) := ⟨_, rfl⟩
  have hrl : ∀ r ∈ rowsOf bmp p.heightPx (rowBytes p.colorMode p.widthPx) mv, r.length = rowBytes p.colorMode p.widthPx := fun r hr => rowsOf_mem hr (by omega)
  obtain ⟨enc, pxs, e1, e2⟩ := encodeRows_pageCode p.bitsPerColor (unit p.colorMode) (unit_pos _) mh
    (flipFun p.bitsPerColor (unit p.colorMode) mh) n (rowsOf bmp p.heightPx (rowBytes p.colorMode p.widthPx) mv)
    (fun r hr => by
      have := lineData_ok p mh r (hrl r hr)
      exact ⟨this.1, by rw [this.2.1, hrl r hr, hn]⟩)
  rw [oneChunk_eq, ← hmh, ← hmv]
  simp only
  rw [e1]
  exact trivial

theorem pageBytes_defined (lum : Pdf.Luminosity) {lib : Pdf.Library} (hdraw : ∀ k sc img, (lib.draw k sc img).length = img.length) {p : Params}
    (hc : p.colorMode = .sRGB24 ∨ p.colorMode = .Gray8) (k : Nat) (drawn : List Pdf.Drawn) (d : Pdf.Drawn) : (Pdf.pageBytes lum lib p k drawn d).Defined := by
  unfold Pdf.pageBytes
  split
  · have himg : (Pdf.image lib p d).length = p.widthPx * p.heightPx := by
      unfold Pdf.image
      cases d <;> simp [hdraw]
    have bytes : ∀ (f : Pdf.Rgb → Bytes) (n : Nat), (∀ q, (f q).length = n) → bitsPerPixel p.colorMode = 8 * n →
        ∃ bmp, Pdf.eachPixel (Pdf.image lib p d) (p.widthPx * p.heightPx) f = .ok bmp ∧ bmp.length = p.heightPx * rowBytes p.colorMode p.widthPx := by
      intro f n hf hbits
      obtain ⟨bmp, h1, h2⟩ := Pdf.eachPixel_length himg hf
      refine ⟨bmp, h1, ?_⟩
      have : rowBytes p.colorMode p.widthPx = p.widthPx * n := by
        unfold rowBytes
        rw [hbits, show p.widthPx * (8 * n) = 8 * (p.widthPx * n) by rw [Nat.mul_left_comm]]
        omega
      rw [h2, this, Nat.mul_assoc, Nat.mul_left_comm]
    have hb : ∃ bmp, Pdf.copyRasterBuffer lum p (Pdf.image lib p d) = .ok bmp ∧ bmp.length = p.heightPx * rowBytes p.colorMode p.widthPx := by
      rcases hc with hm | hm
      · simp only [Pdf.copyRasterBuffer, hm]; rw [hm] at bytes; exact bytes _ 3 (fun _ => rfl) rfl
      · simp only [Pdf.copyRasterBuffer, hm]; rw [hm] at bytes; exact bytes _ 1 (fun _ => rfl) rfl
    obtain ⟨bmp, h1, h2⟩ := hb
    rw [h1, Outcome.bind_ok]
    exact bmpToPwg_defined _ _ _ h2
  · exact trivial

theorem pagesLoop_defined (lum : Pdf.Luminosity) {lib : Pdf.Library} (hdraw : ∀ k sc img, (lib.draw k sc img).length = img.length) (taken : List Bytes → Bool) (paper : Paper) {p : Params}
    (hc : p.colorMode = .sRGB24 ∨ p.colorMode = .Gray8) (total : Nat) (seq : List Nat) (k : Nat) (drawn : List Pdf.Drawn) (out : Bytes) (ev : List Pdf.Event) :
    (Pdf.pagesLoop lum lib taken paper p total seq k drawn out ev).result.Defined := by
  induction seq generalizing k drawn out ev with
  | nil =>
    unfold Pdf.pagesLoop
    simp only
    repeat' split
    all_goals exact trivial
  | cons n seq ih =>
    unfold Pdf.pagesLoop
    simp only
    split
    · exact trivial
    · have hp := pageBytes_defined lum hdraw hc (k + 1) (drawn ++ [Pdf.drawnFor lib paper p n]) (Pdf.drawnFor lib paper p n)
      split
      · split
        · exact ih _ _ _ _
        · exact trivial
      · exact trivial
      · rename_i hb; rw [hb] at hp; exact hp
      · rename_i hb; rw [hb] at hp; exact hp

theorem pdfToPrintable_defined (lum : Pdf.Luminosity) {lib : Pdf.Library} (hdraw : ∀ k sc img, (lib.draw k sc img).length = img.length) (taken : List Bytes → Bool) (paper : Paper) {p : Params}
    (hc : p.colorMode = .sRGB24 ∨ p.colorMode = .Gray8) : (Pdf.pdfToPrintable lum lib taken paper p).result.Defined := by
  unfold Pdf.pdfToPrintable
  split
  · exact trivial
  · split
    · exact trivial
    · rename_i n _
      obtain ⟨seq, hs⟩ := Pdf.pageSequence_ok p n
      rw [hs]
      simp only
      split
      · exact pagesLoop_defined lum hdraw taken paper hc _ _ _ _ _ _
      · exact pagesLoop_defined lum hdraw taken paper hc _ _ _ _ _ _
      · exact pagesLoop_defined lum hdraw taken paper hc _ _ _ _ _ _
      · exact pagesLoop_defined lum hdraw taken paper hc _ _ _ _ _ _
      · exact trivial

/-- A part of `print` that leaves the parameters alone. -/
def KeepsParams (s : Step) : Prop := ∀ j j', s j = .ok (some j') → j'.params = j.params

theorem setOrFail_params {sup : Ipp.Attrs → Ipp.Value → Outcome Bool} {set : Ipp.Value → PrintJob → Outcome PrintJob} {given : Option Ipp.Value} {force : Bool}
    (h : ∀ v j j', set v j = .ok j' → j'.params = j.params) : KeepsParams (setOrFail sup set given force) := by
  intro j j' hj
  unfold setOrFail at hj
  split at hj
  · cases hj; rfl
  · obtain ⟨b, _, hj⟩ := Outcome.bind_eq_ok.mp hj
    split at hj
    · obtain ⟨j1, h1, hj⟩ := Outcome.bind_eq_ok.mp hj
      cases hj
      exact h _ _ _ h1
    · cases hj

theorem setJob_params (s : Ipp.Setting) (v : Ipp.Value) (j j' : PrintJob) (h : setJob s v j = .ok j') : j'.params = j.params := by
  unfold setJob at h
  obtain ⟨a, _, h⟩ := Outcome.bind_eq_ok.mp h
  cases h; rfl

theorem setOp_params (s : Ipp.Setting) (v : Ipp.Value) (j j' : PrintJob) (h : setOp s v j = .ok j') : j'.params = j.params := by
  unfold setOp at h
  obtain ⟨a, _, h⟩ := Outcome.bind_eq_ok.mp h
  cases h; rfl

theorem choose_params (s : Ipp.Setting) (given : Option Ipp.Value) (force : Bool) : KeepsParams (choose s given force) := setOrFail_params (setJob_params s)

theorem runSteps_params {l : List Step} (h : ∀ s ∈ l, KeepsParams s) : KeepsParams (runSteps l) := by
  induction l with
  | nil => intro j j' hj; cases hj; rfl
  | cons s r ih =>
    intro j j' hj
    unfold runSteps at hj
    obtain ⟨x, h1, hj⟩ := Outcome.bind_eq_ok.mp hj
    cases x with
    | none => cases hj
    | some j1 => rw [ih (fun s hs => h s (List.mem_cons_of_mem _ hs)) j1 j' hj, h s List.mem_cons_self j j1 h1]

theorem printSteps_params (p : Printer) (o : Options) : ∀ s ∈ printSteps p o, KeepsParams s := by
  have hpages : KeepsParams (pagesStep o) := by
    intro j j' h
    unfold pagesStep at h
    split at h
    · cases h; rfl
    · obtain ⟨l, _, h⟩ := Outcome.bind_eq_ok.mp h
      split at h
      · cases h
      · obtain ⟨j1, h1, h⟩ := Outcome.bind_eq_ok.mp h
        cases h
        exact setJob_params _ _ _ _ h1
  have hcopies : KeepsParams (copiesStep p o) := by
    intro j j' h
    unfold copiesStep at h
    split at h
    · simp only [Outcome.pure_eq, Outcome.bind_ok] at h
      exact setOrFail_params (setJob_params Ipp.sCopies) j j' h
    · obtain ⟨b, _, h⟩ := Outcome.bind_eq_ok.mp h
      exact setOrFail_params (setJob_params Ipp.sCopies) j j' h
  have hboth : KeepsParams (bothStep o) := by
    intro j j' h
    unfold bothStep at h
    split at h <;> cases h
    rfl
  have hres : KeepsParams resolutionListStep := by
    intro j j' h
    obtain ⟨_, _, h⟩ := Outcome.bind_eq_ok.mp h
    cases h; rfl
  have hq : KeepsParams qualityListStep := by
    intro j j' h
    obtain ⟨_, _, h⟩ := Outcome.bind_eq_ok.mp h
    obtain ⟨_, _, h⟩ := Outcome.bind_eq_ok.mp h
    cases h; rfl
  have hmargin : KeepsParams (marginStep o) := by
    intro j j' h
    unfold marginStep at h
    split at h <;> cases h
    rfl
  intro s hs
  simp only [printSteps, List.mem_cons, List.not_mem_nil, or_false] at hs
  rcases hs with h | h | h | h | h | h | h | h | h | h | h | h | h | h | h | h | h | h | h | h | h | h | h | h | h | h | h <;> subst h <;>
    first
      | exact choose_params _ _ _
      | exact hpages
      | exact hcopies
      | exact hboth
      | exact hres
      | exact hq
      | exact hmargin
      | exact setOrFail_params (setOp_params _)

/-- The job that `print` makes has the parameters of a new one. -/
theorem prepare_fresh {w : World} {p : Printer} {o : Options} {inFile : Bytes} {job : PrintJob} {ty : Bytes} (h : prepare w p o inFile = .ok (some (job, ty))) : job.params = {} := by
  unfold prepare at h
  obtain ⟨j, hj, h⟩ := Outcome.bind_eq_ok.mp h
  obtain ⟨j0, h0, h⟩ := Outcome.bind_eq_ok.mp h
  have hpar : j.params = {} := by
    unfold createJob at hj
    obtain ⟨l, _, hj⟩ := Outcome.bind_eq_ok.mp hj
    cases hj
    rfl
  obtain ⟨a, b, e⟩ := restored_printer h0
  split at h
  · cases h
  · obtain ⟨r, hr, h⟩ := Outcome.bind_eq_ok.mp h
    cases r with
    | none => cases h
    | some j' =>
      cases h
      rw [runSteps_params (printSteps_params p o) _ _ hr, e]
      exact hpar

/-- The conversion functions that are in use for a type. -/
theorem default_funs {input target : Bytes} {f : ConvertFun} (h : getConvertFun defaultPipelines input target = some f) :
    (f = .pdf2Printable → input = pdf) ∧ (f = .baselinify → input = jpeg) ∧ ∀ n, f ≠ .user n := by
  have mem : ∀ (l : Pipelines) (key : Bytes × Bytes) (f : ConvertFun), findFun key l = some f → (key, f) ∈ l := by
    intro l key f hf
    induction l with
    | nil => cases hf
    | cons x r ih =>
      obtain ⟨k, g⟩ := x
      unfold findFun at hf
      split at hf
      · rename_i e
        cases hf
        rw [e]
        exact List.mem_cons_self
      · exact List.mem_cons_of_mem _ (ih hf)
  unfold getConvertFun at h
  split at h
  · rename_i g hg
    cases h
    have := mem _ _ _ hg
    simp only [defaultPipelines, List.mem_cons, Prod.mk.injEq, List.not_mem_nil, or_false] at this
    rcases this with ⟨⟨e, _⟩, rfl⟩ | ⟨⟨e, _⟩, rfl⟩ | ⟨⟨e, _⟩, rfl⟩ | ⟨⟨e, _⟩, rfl⟩ | ⟨⟨e, _⟩, rfl⟩ | ⟨⟨e, _⟩, rfl⟩ <;> subst e <;> simp
  · split at h <;> cases h
    simp

/-- Each conversion function comes back with a result. -/
theorem machine_converts {m : Hardware} (hm : Real m) (t : Tools) (w : World) (p : Printer) (o : Options) (inFile : Bytes) (hconv : w.env.convert = machineConvert m t inFile)
    (hpl : w.env.pipelines = defaultPipelines) (hdraw : ∀ k sc img, ((t.pdf inFile).draw k sc img).length = img.length) (hren : JobRenders m t w p o inFile)
    (hl : Jpeg.Spec.Sound t.jpeg) (hb : t.buffer ≠ []) (hjpeg : ∀ job data, prepare w p o inFile = .ok (some (job, jpeg)) → t.read inFile = some data → ∃ pic, Jpeg.Spec.Reads t.jpeg data pic) :
    JobConverts w p o inFile := by
  intro job ty n j f h1 h2 h3 h4
  suffices hd : (w.env.convert f j).2.Defined by
    cases hx : (w.env.convert f j).2 <;> rw [hx] at hd <;> first | exact trivial | exact hd
  rw [hpl] at h3 h4
  obtain ⟨hpdf, hj, hu⟩ := default_funs h4
  have whole : ∀ g : Bytes → Outcome Bytes, (∀ b, t.read inFile = some b → (g b).Defined) → (wholeFile t inFile g).2.Defined := by
    intro g hg
    unfold wholeFile
    cases hr : t.read inFile with
    | none => exact trivial
    | some b =>
      have := hg b hr
      simp only
      cases hx : g b <;> rw [hx] at this <;> first | exact trivial | exact this
  rw [hconv]
  cases f with
  | pdf2Printable =>
    have hty := hpdf rfl
    subst hty
    have hcount : w.pdfPages inFile = some n := by unfold countPages at h2; rw [if_pos rfl] at h2; exact h2
    rw [machine_same hm hdraw (fun _ => job_renders hren hpl h1 hcount j h3)]
    have hc : (printParams j).colorMode = .sRGB24 ∨ (printParams j).colorMode = .Gray8 := colors_fresh h3 (Eq.trans (b := job.params) rfl (prepare_fresh h1))
    refine Ipp.Outcome.bind_defined (pdfToPrintable_defined _ ?_ _ _ hc) (fun _ _ => trivial)
    exact hdraw
  | baselinify =>
    have hty := hj rfl
    subst hty
    refine whole _ (fun b hr => ?_)
    obtain ⟨pic, hpic⟩ := hjpeg job b h1 hr
    obtain ⟨bytes, pic', e, _⟩ := Jpeg.C80_picture_partial hl hb hpic []
    unfold makeBaseline
    rw [e]
    exact trivial
  | justUpload => exact whole _ (fun b _ => trivial)
  | fixupText => exact whole _ (fun b _ => trivial)
  | user n => exact absurd rfl (hu n)

/-- **C110, it ends.** `ippclient print` comes to an end with the conversion functions as they are, in the arithmetic of the machine: what C101 takes for granted of them. Missing: as in C101,
numbers that are not sensible and messages that can not be decoded; here sizes without a meaning and damaged pages (`JobRenders`), and JPEG files that libjpeg can not read. -/
theorem C110_ends_partial {m : Hardware} (hm : Real m) (t : Tools) (w : World) (p : Printer) (o : Options) (inFile : Bytes) (hconv : w.env.convert = machineConvert m t inFile)
    (hpl : w.env.pipelines = defaultPipelines) (hdraw : ∀ k sc img, ((t.pdf inFile).draw k sc img).length = img.length) (hren : JobRenders m t w p o inFile)
    (hl : Jpeg.Spec.Sound t.jpeg) (hb : t.buffer ≠ []) (hjpeg : ∀ job data, prepare w p o inFile = .ok (some (job, jpeg)) → t.read inFile = some data → ∃ pic, Jpeg.Spec.Reads t.jpeg data pic)
    (ha : Answers w) (hp : SensibleAt printerNumbers p.attrs) (hs : StoreSensible w.store) (ho : OptionsSensible o) : Ends (printCommand w p o inFile) :=
  C101_print_partial w p o inFile (machine_converts hm t w p o inFile hconv hpl hdraw hren hl hb hjpeg) ha hp hs ho

/-! ## Which sizes have a meaning -/

namespace Spec

/-- The job that `print` makes of a PDF file has resolutions of 1 to 40000 dpi, and the pages that it asks for are not damaged. -/
def JobModerate (m : Hardware) (t : Tools) (w : World) (p : Printer) (o : Options) (inFile : Bytes) : Prop :=
  ∀ job n j, prepare w p o inFile = .ok (some (job, pdf)) → w.pdfPages inFile = some n → finalize w.env.pipelines pdf n job.copy = .ok (none, j) →
    ((1 ≤ j.params.hwResW ∧ j.params.hwResW ≤ 40000) ∧ 1 ≤ j.params.hwResH ∧ j.params.hwResH ≤ 40000) ∧
    ∀ pages seq, (t.pdf inFile).pages = some pages → j.params.pageSequence pages = .ok seq → ∀ n ∈ seq, n ≠ 0 → (m.limits inFile).loads n = true

end Spec

/-- The paper of a job with names of a sensible size is smaller than 100001 inches or millimetres. -/
theorem finalize_fits {pl : Pipelines} {input : Bytes} {pages : Int} {j j' : PrintJob} (hs : SensibleJob j) (h : finalize pl input pages j = .ok (none, j')) : PaperFits j'.paper := by
  obtain ⟨r⟩ := finalize_run h
  have s1 := setDocumentFormat_same r.h1 ⟨hs.job, hs.printer, hs.paper, hs.resW, hs.resH⟩
  have s2 := setCompression_same r.h2 s1
  rw [(frame_paper r).2.1]
  have h3 := r.h3
  unfold setPaper at h3
  rw [Outcome.bind_eq_ok] at h3; obtain ⟨n, hn, h3⟩ := h3
  rw [Outcome.bind_eq_ok] at h3; obtain ⟨b, hb, h3⟩ := h3
  injection h3 with h3
  have e1 := congrArg Prod.fst h3
  have e2 := congrArg Prod.snd h3
  simp only at e1 e2
  subst e1
  have few : FewDigits 5 n := by
    unfold Job.getStr at hn
    rw [Outcome.bind_eq_ok] at hn
    obtain ⟨v, hv, hn⟩ := hn
    cases hn
    have := setting_sensible (s := Ipp.sMedia) rfl (by decide) (by decide +kernel) (by decide +kernel) s2.job s2.printer (show Sensible (.str _) from s2.paper) hv
    unfold strOf
    split
    · exact this
    · intro a d b hd _
      have := congrArg List.length hd
      simp at this
      omega
  refine paper_fits few ?_ (p := r.j2.paper)
  rw [← e2, ← hb]

theorem pixels_moderate {u : PaperUnits} {x : Rat} {res : Nat} (hu : u ≠ .Pixels) (h0 : 0 ≤ x) (h1 : x ≤ 100001) (hr : res ≤ 40000) : sizeInPixels u x res < 2 ^ 32 := by
  have hr' : (res : Rat) ≤ 40000 := by exact_mod_cast hr
  have hr0 : (0 : Rat) ≤ res := by exact_mod_cast Nat.zero_le res
  have h2 : (0 : Rat) ≤ x * res := mul_nonneg h0 hr0
  have h3 : x * res ≤ ((4000040000 : Nat) : Rat) := by
    calc x * res ≤ 100001 * 40000 := mul_le_mul h1 hr' hr0 (by norm_num)
      _ = _ := by norm_num
  have h4 := dbl_le (by norm_num) h2 h3
  have h5 := dbl_nonneg h2
  have fin : ∀ q : Rat, 0 ≤ q → q ≤ ((4000040000 : Nat) : Rat) → q.floor.toNat < 2 ^ 32 := by
    intro q _ hq
    have : q.floor ≤ 4000040000 := by
      have e : (q.floor : Rat) ≤ ((4000040000 : Int) : Rat) := le_trans (Rat.floor_le q) (by exact_mod_cast hq)
      exact_mod_cast e
    have h : q.floor.toNat ≤ 4000040000 := by omega
    exact lt_of_le_of_lt h (by norm_num)
  cases u with
  | Pixels => exact absurd rfl hu
  | Inches => exact fin _ h5 h4
  | Millimeters =>
    have hm : (1 : Rat) ≤ mmPerIn := le_dbl (n := 1) (by norm_num) (by norm_num)
    have h6 : (0 : Rat) ≤ dbl (x * res) / mmPerIn := div_nonneg h5 (le_trans zero_le_one hm)
    have h7 : dbl (x * res) / mmPerIn ≤ ((4000040000 : Nat) : Rat) := le_trans (div_le_self h5 hm) h4
    exact fin _ (dbl_nonneg h6) (dbl_le (by norm_num) h6 h7)

theorem points_moderate {u : PaperUnits} {x : Rat} (res : Nat) (hu : u ≠ .Pixels) (h0 : 0 ≤ x) (h1 : x ≤ 100001) : sizeInPoints u x res < 2 ^ 64 := by
  have k : ∀ y : Rat, 0 ≤ y → y ≤ 100001 → 0 ≤ dbl (y * 72) ∧ dbl (y * 72) ≤ ((7200072 : Nat) : Rat) := by
    intro y hy0 hy
    have e : y * 72 ≤ ((7200072 : Nat) : Rat) := by push_cast; linarith
    have e0 : (0 : Rat) ≤ y * 72 := by linarith
    exact ⟨dbl_nonneg e0, dbl_le (by norm_num) e0 e⟩
  cases u with
  | Pixels => exact absurd rfl hu
  | Inches =>
    refine lt_of_le_of_lt (k x h0 h1).2 (by norm_num)
  | Millimeters =>
    have hm : (1 : Rat) ≤ mmPerIn := le_dbl (n := 1) (by norm_num) (by norm_num)
    have h6 : (0 : Rat) ≤ x / mmPerIn := div_nonneg h0 (le_trans zero_le_one hm)
    have h7 : x / mmPerIn ≤ ((100001 : Nat) : Rat) := le_trans (div_le_self h0 hm) (by exact_mod_cast h1)
    obtain ⟨a, b⟩ := k (dbl (x / mmPerIn)) (dbl_nonneg h6) (by exact_mod_cast dbl_le (by norm_num) h6 h7)
    show roundHundredth (dbl (dbl (x / mmPerIn) * 72)) < 2 ^ 64
    generalize dbl (dbl (x / mmPerIn) * 72) = d at a b
    unfold roundHundredth
    have c0 : (0 : Rat) ≤ d * 100 := by linarith
    have c1 : d * 100 ≤ ((720007200 : Nat) : Rat) := by push_cast at b ⊢; linarith
    have c2 := dbl_le (by norm_num) c0 c1
    have c3 := dbl_nonneg c0
    generalize dbl (d * 100) = g at c2 c3
    have near := abs_le.mp (roundAway_near g)
    have e : (roundAway g : Rat) / 100 ≤ ((7200073 : Nat) : Rat) := by push_cast at c2 ⊢; linarith [near.2]
    by_cases hneg : (0 : Rat) ≤ (roundAway g : Rat) / 100
    · exact lt_of_le_of_lt (dbl_le (by norm_num) hneg e) (by norm_num)
    · have : dbl ((roundAway g : Rat) / 100) ≤ dbl 0 := dbl_mono' (le_of_not_ge hneg)
      rw [dbl_zero] at this
      exact lt_of_le_of_lt this (by norm_num)

/-- Sizes have a meaning if the resolution is moderate. -/
theorem moderate_renders {m : Hardware} {t : Tools} {w : World} {p : Printer} {o : Options} {inFile : Bytes} (h : JobModerate m t w p o inFile) (hp : SensibleAt printerNumbers p.attrs)
    (hs : StoreSensible w.store) (ho : OptionsSensible o) : JobRenders m t w p o inFile := by
  intro job n j h1 h2 h3
  obtain ⟨⟨⟨a1, a2⟩, a3, a4⟩, hl⟩ := h job n j h1 h2 h3
  have hj := (prepare_sensible hs ho hp).2 _ _ h1
  obtain ⟨⟨w0, w1⟩, ⟨v0, v1⟩, hu⟩ := finalize_fits (j := job.copy) ⟨hj.job, hj.printer, hj.paper, hj.resW, hj.resH⟩ h3
  refine ⟨⟨fun _ => ⟨pixels_moderate hu w0 w1 a2, pixels_moderate hu v0 v1 a4, ?_⟩, fun _ => ⟨fun h => absurd h hu, points_moderate _ hu w0 w1, points_moderate _ hu v0 v1⟩⟩, hl⟩
  show j.params.hwResW = 0 ↔ j.params.hwResH = 0
  omega

/-- **C110, it ends, with resolutions of 1 to 40000 dpi.** -/
theorem C110_moderate_partial {m : Hardware} (hm : Real m) (t : Tools) (w : World) (p : Printer) (o : Options) (inFile : Bytes) (hconv : w.env.convert = machineConvert m t inFile)
    (hpl : w.env.pipelines = defaultPipelines) (hdraw : ∀ k sc img, ((t.pdf inFile).draw k sc img).length = img.length) (hmod : JobModerate m t w p o inFile)
    (hl : Jpeg.Spec.Sound t.jpeg) (hb : t.buffer ≠ []) (hjpeg : ∀ job data, prepare w p o inFile = .ok (some (job, jpeg)) → t.read inFile = some data → ∃ pic, Jpeg.Spec.Reads t.jpeg data pic)
    (ha : Answers w) (hp : SensibleAt printerNumbers p.attrs) (hs : StoreSensible w.store) (ho : OptionsSensible o) : Ends (printCommand w p o inFile) :=
  C110_ends_partial hm t w p o inFile hconv hpl hdraw (moderate_renders hmod hp hs ho) hl hb hjpeg ha hp hs ho

/-- **C110, it ends, for the whole program**: whatever the command line is and whatever the printer answers. -/
theorem C110_main_partial {m : Hardware} (hm : Real m) (t : Tools) (w : World) (args : List Bytes)
    (hpl : w.env.pipelines = defaultPipelines) (hl : Jpeg.Spec.Sound t.jpeg) (hb : t.buffer ≠ []) (ha : Answers w) (hs : StoreSensible w.store)
    (hargs : ∀ sub r e p, _root_.Verif.Tools.getSubArgs commands args = .inr (sub, r) → (construct w.files w.env.reqId (r.positional.getD 0 []) w.user w.attrsReply).out = .ok (e, p) →
      w.env.convert = machineConvert m t (r.positional.getD 1 []) ∧ (∀ k sc img, ((t.pdf (r.positional.getD 1 [])).draw k sc img).length = img.length) ∧
      JobModerate m t w p (Options.of r.vals) (r.positional.getD 1 []) ∧
      (∀ job data, prepare w p (Options.of r.vals) (r.positional.getD 1 []) = .ok (some (job, jpeg)) → t.read (r.positional.getD 1 []) = some data → ∃ pic, Jpeg.Spec.Reads t.jpeg data pic) ∧
      SensibleAt printerNumbers p.attrs)
    (ho : ∀ sub r, _root_.Verif.Tools.getSubArgs commands args = .inr (sub, r) → OptionsSensible (Options.of r.vals)) : Ends (Client.main w args) := by
  refine C101_main_partial w args (fun sub r e p h1 h2 => ?_) ha (fun sub r e p h1 h2 => (hargs sub r e p h1 h2).2.2.2.2) hs ho
  obtain ⟨a, b, c, d, e⟩ := hargs sub r e p h1 h2
  exact machine_converts hm t w p _ _ a hpl b (moderate_renders c e hs (ho _ _ h1)) hl hb d

/-! ## Where it fails -/

/-- C110 in full: without conditions on the numbers that the job has and on the document. -/
def C110_ends_full : Prop := ∀ (m : Hardware) (t : Tools) (w : World) (p : Printer) (o : Options) (inFile : Bytes), Real m → w.env.convert = machineConvert m t inFile →
  w.env.pipelines = defaultPipelines → (∀ k sc img, ((t.pdf inFile).draw k sc img).length = img.length) → Jpeg.Spec.Sound t.jpeg → t.buffer ≠ [] →
  (∀ job data, prepare w p o inFile = .ok (some (job, jpeg)) → t.read inFile = some data → ∃ pic, Jpeg.Spec.Reads t.jpeg data pic) →
  Answers w → SensibleAt printerNumbers p.attrs → StoreSensible w.store → OptionsSensible o → Ends (printCommand w p o inFile)

/-- cairo's limits, and a document with these pages damaged -/
def exHardware (damaged : List Nat) : Hardware := ⟨(List.replicate · 77), fun _ => ⟨32767, fun n => !damaged.contains n⟩⟩

theorem exMachine_real (damaged : List Nat) : Real (exHardware damaged) := ⟨fun n => by simp [exHardware], fun _ => Nat.le_refl _⟩

/-- a printer that answers to everything -/
def exMachineWorld (damaged : List Nat) : World := { Client.answering with env := { exampleEnv with convert := machineConvert (exHardware damaged) exTools (ascii "a.pdf") } }

theorem exMachine_answers (damaged : List Nat) : Answers (exMachineWorld damaged) :=
  ⟨answering_answers.attrs, answering_answers.other, answering_answers.create, answering_answers.print, answering_answers.files⟩

/-- What a run does that does not end. -/
theorem full_false {damaged : List Nat} {o : Options} (ho : OptionsSensible o) (hp : SensibleAt printerNumbers (exClientPrinter [pwg]).attrs)
    (h : (match (printCommand (exMachineWorld damaged) (exClientPrinter [pwg]) o (ascii "a.pdf")).out with | .ub => true | _ => false) = true) : ¬ C110_ends_full := by
  intro hf
  have h2 := hf (exHardware damaged) exTools (exMachineWorld damaged) (exClientPrinter [pwg]) o (ascii "a.pdf") (exMachine_real _) rfl rfl (fun _ _ _ => List.length_map ..)
    Jpeg.toy_sound (by decide) (fun _ data _ hr => by
      have : exTools.read (ascii "a.pdf") = none := by decide +kernel
      rw [this] at hr; cases hr) (exMachine_answers _) hp (fun _ _ _ h => by cases h) ho
  unfold Client.Ends at h2
  split at h
  · rename_i hx
    rw [hx] at h2
    exact h2
  · cases h

theorem exClient_sensible : SensibleAt printerNumbers (exClientPrinter [pwg]).attrs := sensibleAt_of (by decide +kernel)

theorem exOptions_sensible {o : Options} (h1 : ∀ s, o.paperSize = some s → Client.runOk 5 0 s = true) (h2 : ∀ r, o.hwRes = some r → r.toNat < 1073741824)
    (h3 : ∀ r, o.hwResX = some r → r.toNat < 1073741824) (h4 : ∀ r, o.hwResY = some r → r.toNat < 1073741824) : OptionsSensible o :=
  ⟨fun s hs => fewDigits_of (h1 s hs), h2, h3, h4⟩

/-- **C110 is false of a document with a damaged page** that is to be printed. -/
theorem C110_damaged_false : ¬ C110_ends_full :=
  full_false (damaged := [2]) (o := exOptions) (exOptions_sensible (fun s h => by cases h; decide +kernel) nofun nofun nofun) exClient_sensible (by decide +kernel)

/-- **C110 is false with a resolution of 0 in one direction**, for PWG. -/
theorem C110_zero_false : ¬ C110_ends_full :=
  full_false (damaged := []) (o := { exOptions with hwResX := some 1, hwResY := some 0, force := true })
    (exOptions_sensible (fun s h => by cases h; decide +kernel) nofun (fun r h => by cases h; decide) (fun r h => by cases h; decide)) exClient_sensible (by decide +kernel)

/-- **C110 is false with pages of 2^32 pixels and more**: 858993460 dpi on paper of five inches. -/
theorem C110_wraps_false : ¬ C110_ends_full :=
  full_false (damaged := []) (o := { paperSize := some (ascii "a_5x1in"), hwResX := some 858993460, hwResY := some 1, force := true })
    (exOptions_sensible (fun s h => by cases h; decide +kernel) nofun (fun r h => by cases h; decide) (fun r h => by cases h; decide)) exClient_sensible (by decide +kernel)

/-! ## Cases that meet the hypotheses -/

/-- The job that is made has moderate numbers. -/
def exJobRenders (o : Options) : Bool :=
  match prepare (exMachineWorld []) (exClientPrinter [pwg]) o (ascii "a.pdf") with
  | .ok (some (job, _)) =>
    match finalize defaultPipelines pdf 3 job.copy with
    | .ok (none, j) => decide ((printParams j).format = .PWG ∧ (printParams j).widthPx < 2 ^ 32 ∧ (printParams j).heightPx < 2 ^ 32 ∧ 0 < (printParams j).hwResW ∧ 0 < (printParams j).hwResH ∧
        j.targetFormat = pwg)
    | _ => true
  | _ => true

theorem exRenders {o : Options} (h : exJobRenders o = true) : JobRenders (exHardware []) exTools (exMachineWorld []) (exClientPrinter [pwg]) o (ascii "a.pdf") := by
  intro job n j h1 h2 h3
  have hn : n = 3 := by
    have h2 : some (3 : Int) = some n := h2
    cases h2; rfl
  subst hn
  have h3 : finalize defaultPipelines pdf 3 job.copy = .ok (none, j) := h3
  unfold exJobRenders at h
  rw [h1] at h
  simp only [h3] at h
  obtain ⟨e1, e2, e3, e4, e5, _⟩ := of_decide_eq_true h
  refine ⟨⟨fun _ => ⟨e2, e3, by omega⟩, fun hf => ?_⟩, fun _ _ _ _ n _ _ => rfl⟩
  rcases hf with hf | hf <;> rw [e1] at hf <;> cases hf

/-- Pages 2 and 3 are sent twice, and the program ends with 0. -/
example : JobRenders (exHardware []) exTools (exMachineWorld []) (exClientPrinter [pwg]) exOptions (ascii "a.pdf") ∧
    (match (printCommand (exMachineWorld []) (exClientPrinter [pwg]) exOptions (ascii "a.pdf")).out with | .ok e => decide (e.code = 0) | _ => false) = true ∧
    (document (printCommand (exMachineWorld []) (exClientPrinter [pwg]) exOptions (ascii "a.pdf")).events).length = 4 + 4 * 1799 :=
  ⟨exRenders (by decide +kernel), by decide +kernel, by decide +kernel⟩

/-- With 300 dpi, and a whole command line -/
example : JobModerate (exHardware []) exTools (exMachineWorld []) (exClientPrinter [pwg]) { exOptions with hwRes := some 300, force := true } (ascii "a.pdf") ∧
    (match (printCommand (exMachineWorld []) (exClientPrinter [pwg]) { exOptions with hwRes := some 300, force := true } (ascii "a.pdf")).out with
      | .ok e => decide (e.code = 0)
      | _ => false) = true := by
  refine ⟨fun job n j h1 h2 h3 => ⟨?_, fun _ _ _ _ n _ _ => rfl⟩, by decide +kernel⟩
  have hn : n = 3 := by
    have h2 : some (3 : Int) = some n := h2
    cases h2; rfl
  subst hn
  have h3 : finalize defaultPipelines pdf 3 job.copy = .ok (none, j) := h3
  have h : (match prepare (exMachineWorld []) (exClientPrinter [pwg]) { exOptions with hwRes := some 300, force := true } (ascii "a.pdf") with
    | .ok (some (job, _)) =>
      match finalize defaultPipelines pdf 3 job.copy with
      | .ok (none, j) => decide (j.params.hwResW = 300 ∧ j.params.hwResH = 300)
      | _ => true
    | _ => true) = true := by decide +kernel
  rw [h1] at h
  simp only [h3] at h
  have := of_decide_eq_true h
  omega

/-- With 3000000 dpi the pages are 30000 pixels wide; with 9000000 dpi they would be 90000, and the program ends with 1. -/
example : JobRenders (exHardware []) exTools (exMachineWorld []) (exClientPrinter [pwg]) { exOptions with hwResX := some 9000000, hwResY := some 1, force := true } (ascii "a.pdf") ∧
    (match (printCommand (exMachineWorld []) (exClientPrinter [pwg]) { exOptions with hwResX := some 9000000, hwResY := some 1, force := true } (ascii "a.pdf")).out with
      | .ok e => decide (e.code = 1)
      | _ => false) = true :=
  ⟨exRenders (by decide +kernel), by decide +kernel⟩

/-- The command line of the last example. -/
def exMachineArgs : List Bytes :=
  [ascii "print", ascii "--paper-size", ascii "na_letter_8.5x11in", ascii "-r", ascii "600", ascii "-f", ascii "--format", pwg, ascii "ipp://p", ascii "a.pdf"]

/-- The hypotheses of `C110_main_partial` are met: a page of letter size with 600 dpi. -/
example : Ends (Client.main (exMachineWorld []) exMachineArgs) := by
  have hargs : (match _root_.Verif.Tools.getSubArgs commands exMachineArgs with
      | .inr (_, r) => decide (r.positional.getD 0 [] = ascii "ipp://p") && decide (r.positional.getD 1 [] = ascii "a.pdf") && decide ((Options.of r.vals).paperSize = some (ascii "na_letter_8.5x11in")) &&
          decide ((Options.of r.vals).hwRes = some 600) && decide ((Options.of r.vals).hwResX = none) && decide ((Options.of r.vals).hwResY = none) &&
          (match (construct (exMachineWorld []).files (exMachineWorld []).env.reqId (ascii "ipp://p") (exMachineWorld []).user (exMachineWorld []).attrsReply).out with
          | .ok (_, p) => p.attrs.all (fun e => !printerNumbers.contains e.1 || (Client.valuesIn e.2.2).all Client.sensibleB) &&
              (match prepare (exMachineWorld []) p (Options.of r.vals) (ascii "a.pdf") with
              | .ok (some (job, t)) => decide (t = pdf) &&
                (match finalize defaultPipelines pdf 3 job.copy with
                | .ok (none, j) => decide (j.params.hwResW = 600 ∧ j.params.hwResH = 600)
                | _ => false)
              | _ => false)
          | _ => false)
      | .inl _ => false) = true := by decide +kernel
  have facts : ∀ sub r e p, _root_.Verif.Tools.getSubArgs commands exMachineArgs = .inr (sub, r) →
      (construct (exMachineWorld []).files (exMachineWorld []).env.reqId (r.positional.getD 0 []) (exMachineWorld []).user (exMachineWorld []).attrsReply).out = .ok (e, p) →
      r.positional.getD 1 [] = ascii "a.pdf" ∧ SensibleAt printerNumbers p.attrs ∧
      ∀ job t, prepare (exMachineWorld []) p (Options.of r.vals) (ascii "a.pdf") = .ok (some (job, t)) → t = pdf ∧
        ∀ j, finalize defaultPipelines pdf 3 job.copy = .ok (none, j) → j.params.hwResW = 600 ∧ j.params.hwResH = 600 := by
    intro sub r e p hr hp
    rw [hr] at hargs
    simp only [Bool.and_eq_true, decide_eq_true_iff] at hargs
    obtain ⟨⟨⟨⟨⟨⟨h0, h1⟩, -⟩, -⟩, -⟩, -⟩, h2⟩ := hargs
    rw [h0] at hp
    rw [hp] at h2
    simp only [Bool.and_eq_true] at h2
    refine ⟨h1, sensibleAt_of h2.1, fun job t hj => ?_⟩
    have h3 := h2.2
    rw [hj] at h3
    simp only [Bool.and_eq_true, decide_eq_true_iff] at h3
    refine ⟨h3.1, fun j hf => ?_⟩
    have h4 := h3.2
    rw [hf] at h4
    exact of_decide_eq_true h4
  refine C110_main_partial (exMachine_real []) exTools (exMachineWorld []) _ rfl Jpeg.toy_sound (by decide) (exMachine_answers _) (fun _ _ _ h => by cases h) ?_ ?_
  · intro sub r e p hr hp
    obtain ⟨h1, h2, h3⟩ := facts sub r e p hr hp
    rw [h1]
    refine ⟨rfl, fun _ _ _ => List.length_map .., fun job n j hj hn hf => ⟨?_, fun _ _ _ _ n _ _ => rfl⟩, fun job data hj _ => ?_, h2⟩
    · have hn : some (3 : Int) = some n := hn
      cases hn
      have := (h3 job pdf hj).2 j hf
      omega
    · have := (h3 job jpeg hj).1
      exact absurd this (by decide +kernel)
  · intro sub r hr
    rw [hr] at hargs
    simp only [Bool.and_eq_true, decide_eq_true_iff] at hargs
    obtain ⟨⟨⟨⟨⟨-, f1⟩, f2⟩, f3⟩, f4⟩, -⟩ := hargs
    refine ⟨fun s hs => ?_, fun s hs => ?_, fun s hs => ?_, fun s hs => ?_⟩
    · rw [f1] at hs; cases hs; exact fewDigits_of (by decide +kernel)
    · rw [f2] at hs; cases hs; decide
    · rw [f3] at hs; cases hs
    · rw [f4] at hs; cases hs

end Verif.Deliver
