import Verif.Deliver.Model
import Verif.Pdf.Complete
import Verif.Pdf.Shown
import Verif.Printer.SupplyProps
import Verif.Job.SettingProps
import Verif.Job.DuplexProps
import Verif.Job.MediaProps
import Verif.Text.Props
import Verif.Jpeg.Props

/-!
# Property C90: from a job to the document that a printer gets
-/

namespace Verif.Deliver

open Job Job.Spec Printer Printer.Spec Raster Raster.Spec

/-! ## Specification -/

namespace Spec

/-- How often the page ranges of a job name page `q` of a document of `m` pages: once if there are none. -/
def named (j : PrintJob) (m q : Nat) : Nat :=
  if q = 0 ∨ m < q then 0
  else match values (KMap.get? j.jobAttrs (ascii "page-ranges")) with
    | [] => 1
    | l => l.countP (fun v => match v with
      | .range low high => decide (low ≤ q ∧ q ≤ high)
      | _ => false)

/-- The page ranges of a job are numbers of pages. -/
def RangesFit (j : PrintJob) : Prop :=
  ∀ low high : Int, .range low high ∈ values (KMap.get? j.jobAttrs (ascii "page-ranges")) → 1 ≤ low ∧ low < 2 ^ 31 ∧ 0 ≤ high ∧ high < 2 ^ 31

/-- How many copies a job asks for. -/
def Copies (j : PrintJob) (n : Int) : Prop :=
  (effective (ascii "copies") j.printerAttrs j.jobAttrs).getD (.int 1) = .int n ∧ 1 ≤ n

/-- A picture as a bitmap of a page: its colors, or its grays. -/
def Bitmap (t : Tools) (p : Params) (img : List Pdf.Rgb) (bmp : Bytes) : Prop :=
  (p.colorMode = .sRGB24 ∧ bmp = Pdf.Spec.rgbBytes img) ∨ (p.colorMode = .Gray8 ∧ bmp = img.map t.lum.gray)

end Spec

open Verif.Deliver.Spec

/-! ## Page sequences -/

theorem count_pagesFromTo (a b q : Nat) : (pagesFromTo a b).count q = if a ≤ q ∧ q ≤ b then 1 else 0 := by
  fun_induction pagesFromTo a b with
  | case1 p h ih =>
    rw [List.count_cons, ih]
    by_cases hq : p = q
    · subst hq; simp [h]
    · have e : (p == q) = false := by simpa using hq
      rw [e]
      by_cases h2 : p ≤ q ∧ q ≤ b
      · rw [if_pos h2, if_pos (by omega)]; rfl
      · rw [if_neg h2, if_neg (by omega)]; rfl
  | case2 p h => rw [if_neg (by omega)]; rfl

theorem count_selected {l : List Ipp.Value} {rs : List (Nat × Nat)}
    (hall : All2 (fun v r => ∃ low high : Int, v = .range low high ∧ (0 ≤ low → low < 2 ^ 64 → (r.1 : Int) = low) ∧ (0 ≤ high → high < 2 ^ 64 → (r.2 : Int) = high)) l rs)
    (hpos : ∀ low high : Int, .range low high ∈ l → 1 ≤ low ∧ low < 2 ^ 31 ∧ 0 ≤ high ∧ high < 2 ^ 31) {m q : Nat} (hq : q ≤ m) :
    (selectedPages rs m).count q = l.countP (fun v => match v with
      | .range low high => decide (low ≤ q ∧ q ≤ high)
      | _ => false) := by
  rw [selectedPages_eq]
  induction hall with
  | nil => rfl
  | @cons v r l rs hr _ ih =>
    obtain ⟨low, high, rfl, h1, h2⟩ := hr
    obtain ⟨p1, p2, p3, p4⟩ := hpos low high List.mem_cons_self
    have h1 := h1 (by omega) (by omega)
    have h2 := h2 (by omega) (by omega)
    rw [List.flatMap_cons, List.count_append, count_pagesFromTo, ih (fun a b hm => hpos a b (List.mem_cons_of_mem _ hm)), List.countP_cons, Nat.add_comm]
    congr 1
    simp only [decide_eq_true_eq]
    by_cases h : low ≤ q ∧ q ≤ high
    · rw [if_pos h, if_pos (by omega)]
    · rw [if_neg h, if_neg (by omega)]

theorem selected_out {rs : List (Nat × Nat)} {m q : Nat} (h : m < q) : (selectedPages rs m).count q = 0 := by
  apply List.count_eq_zero.2
  intro hm
  obtain ⟨r, _, _, _, h1⟩ := (mem_selectedPages rs m q).1 hm
  omega

/-- Each page is in the sequence as often as the ranges name it, for each copy that is made locally. -/
theorem sequence_counts {pl : Pipelines} {pages : Int} {j j' : PrintJob} (h : finalize pl pdf pages j = .ok (none, j')) (hfresh : j.params.pageRangeList = [])
    (hr : RangesFit j) (hc : 1 ≤ j'.params.copies) {m : Nat} {seq : List Nat} (hs : j'.params.pageSequence m = .ok seq) :
    ∀ q, 1 ≤ q → seq.count q = j'.params.copies * named j m q := by
  obtain ⟨_, rs, hrs, hall⟩ := (C32_page_ranges_once pl pdf pages j j' h).1 rfl
  rw [hfresh, List.nil_append] at hrs
  obtain ⟨base, seq', hb, hs', hq⟩ := C31_page_sequence pl pdf pages j j' h m hc
  rw [hs] at hs'; cases hs'
  intro q hq1
  rw [hq q hq1]
  congr 1
  have hbase : base = selectedPages (if rs = [] then [(1, m)] else rs) m := by
    unfold Params.pageSequence at hb
    simp only [] at hb
    rw [if_neg (by omega), hrs] at hb
    injection hb with hb; exact hb.symm
  unfold named
  by_cases hm : m < q
  · rw [hbase, selected_out hm, if_pos (.inr hm)]
  rw [if_neg (by omega), hbase]
  unfold RangesFit at hr
  generalize values (KMap.get? j.jobAttrs (ascii "page-ranges")) = l at hall hr ⊢
  by_cases hl : rs = []
  · subst hl
    cases hall
    rw [if_pos rfl, selectedPages_eq]
    simp only [List.flatMap_cons, List.flatMap_nil, List.append_nil, count_pagesFromTo]
    rw [if_pos (by omega)]
  · rw [if_neg hl, count_selected hall hr (by omega)]
    cases l with
    | nil => cases hall; exact absurd rfl hl
    | cons v l => rfl

/-! ## What a conversion function writes -/

theorem all2_mem_right' {α β : Type} {R : α → β → Prop} {as : List α} {bs : List β} (h : All2 R as bs) {b : β} (hb : b ∈ bs) : ∃ a, a ∈ as ∧ R a b := by
  induction h with
  | nil => cases hb
  | cons h _ ih =>
    rcases List.mem_cons.1 hb with rfl | hb
    · exact ⟨_, List.mem_cons_self, h⟩
    · obtain ⟨a, h1, h2⟩ := ih hb
      exact ⟨a, List.mem_cons_of_mem _ h1, h2⟩

theorem pageSequence_paper (j : PrintJob) (m : Nat) : (printParams j).pageSequence m = j.params.pageSequence m := rfl

/-- The colors of the pages of a new job. -/
theorem colors_fresh {pl : Pipelines} {input : Bytes} {pages : Int} {j j' : PrintJob} (h : finalize pl input pages j = .ok (none, j')) (hfresh : j.params = {}) :
    j'.params.colorMode = .sRGB24 ∨ j'.params.colorMode = .Gray8 := by
  obtain ⟨r⟩ := finalize_run h
  have hb := before_raster r
  have hf := adjustRaster_frame r.h8
  obtain ⟨s, q, l, m', mp, mt, _, _, _, _, _, _, e⟩ := after_raster r
  have e1 : j'.params.colorMode = colorModeOf l m' r.j8.params.colorMode := congrArg (fun x : PrintJob => x.params.colorMode) e
  rw [hf.colorMode, hb.colorMode, hfresh] at e1
  unfold colorModeOf at e1
  split at e1
  · exact .inl e1
  · split at e1
    · exact .inr e1
    · exact .inl e1

theorem bitmap_of {t : Tools} {p : Params} (hm : p.colorMode = .sRGB24 ∨ p.colorMode = .Gray8) {img : List Pdf.Rgb} (hd : img.length = p.widthPx * p.heightPx) {bmp : Bytes}
    (h : Pdf.copyRasterBuffer t.lum p img = .ok bmp) : Bitmap t p img bmp := by
  rcases hm with hm | hm
  · refine .inl ⟨hm, ?_⟩
    have := Pdf.color_bitmap (.inl hm) hd h
    rw [if_neg (by rw [hm]; decide)] at this
    exact this
  · refine .inr ⟨hm, ?_⟩
    unfold Pdf.copyRasterBuffer at h
    simp only [hm, Pdf.eachPixel] at h
    rw [if_neg (by omega), List.take_of_length_le (by omega)] at h
    have hblack : p.isBlack = false := by unfold Params.isBlack; rw [hm]
    simp only [hblack, Bool.false_eq_true, if_false] at h
    cases h
    clear hd
    induction img with
    | nil => rfl
    | cons q qs ih => simp only [List.map_cons, List.flatten_cons, ih]; rfl

theorem render_ok {t : Tools} {inFile : Bytes} {j : PrintJob} (h : (renderPdf t inFile j).2 = .ok none) :
    (Pdf.pdfToPrintable t.lum (t.pdf inFile) t.taken j.paper (printParams j)).result = .ok none := by
  unfold renderPdf at h
  obtain ⟨e, h1, h2⟩ := Outcome.bind_eq_ok.1 h
  cases e with
  | none => exact h1
  | some e => cases h2

theorem copies_positive {pl : Pipelines} {input : Bytes} {pages : Int} {j j' : PrintJob} (h : finalize pl input pages j = .ok (none, j')) (hfresh : j.params.copies = 1) {n : Int}
    (hn : Copies j n) : 1 ≤ j'.params.copies := by
  rcases (C31_copies_once pl input pages j j' h hfresh n hn.1 hn.2).1 with ⟨_, h1⟩ | ⟨_, h1, h2, _⟩ <;> omega

/-- What is known of the page sequence of a job that was sent: every page comes out as often as the ranges name it, times the number of copies asked for; `k` is the
number of copies that the printer makes of what it gets. -/
structure Sequence (j j' : PrintJob) (n : Int) (m : Nat) (seq : List Nat) : Prop where
  computed : j'.params.pageSequence m = .ok seq
  counts : ∃ k, PrinterMakes j'.printerAttrs j'.jobAttrs k ∧ 1 ≤ k ∧ ∀ q, 1 ≤ q → (seq.count q : Int) * k = n * named j m q
  pages : ∀ q ∈ seq, q ≤ m

theorem run_sequence (p : Params) (m : Nat) {seq : List Nat} (hs : p.pageSequence m = .ok seq) : ∀ q ∈ seq, q ≤ m := by
  intro q hq
  by_cases h0 : q = 0
  · omega
  have base_le : ∀ rs : List (Nat × Nat), q ∈ selectedPages rs m → q ≤ m := by
    intro rs hb
    obtain ⟨_, _, _, _, h⟩ := (mem_selectedPages _ m q).1 hb
    exact h
  by_cases hk : 1 < p.copies
  · obtain ⟨base, run, seq', hb, hs', _, _, _, _, _, hcount, _⟩ := C16_copies p m hk
    rw [hs] at hs'; cases hs'
    have hc := hcount q (by omega)
    have : 0 < seq.count q := List.count_pos_iff.2 hq
    rw [hc] at this
    have hb' : q ∈ base := List.count_pos_iff.1 (Nat.pos_of_mul_pos_left this)
    unfold Params.pageSequence at hb
    simp only [] at hb
    rw [if_neg (by omega)] at hb
    cases hb
    exact base_le _ hb'
  · unfold Params.pageSequence at hs
    simp only [] at hs
    rw [if_neg hk] at hs
    cases hs
    exact base_le _ hq

theorem sequence_of {pl : Pipelines} {pages : Int} {j j' : PrintJob} (h : finalize pl pdf pages j = .ok (none, j')) (hfresh : j.params = {}) (hr : RangesFit j) {n : Int}
    (hn : Copies j n) (ht : j'.targetFormat = pwg ∨ j'.targetFormat = urf) {m : Nat} {seq : List Nat} (hs : j'.params.pageSequence m = .ok seq) : Sequence j j' n m seq := by
  have hc := copies_positive h (by rw [hfresh]) hn
  obtain ⟨k, h1, h2⟩ := (C31_copies_once pl pdf pages j j' h (by rw [hfresh]) n hn.1 hn.2).2 rfl
    (by unfold isPrinterRaster; rcases ht with ht | ht <;> rw [ht] <;> decide)
  have hk : 1 ≤ k := by
    have h3 := hn.2
    rw [← h2] at h3
    apply Int.not_lt.1
    intro h4
    have := Int.mul_nonpos_of_nonneg_of_nonpos (a := (j'.params.copies : Int)) (b := k) (by omega) (by omega)
    omega
  refine ⟨hs, ⟨k, h1, hk, fun q hq => ?_⟩, run_sequence _ m hs⟩
  rw [sequence_counts h (by rw [hfresh]) hr hc hs q hq, ← h2]
  push_cast
  rw [Int.mul_right_comm]

theorem sequence_copy {job j' : PrintJob} {n : Int} {m : Nat} {seq : List Nat} (h : Sequence job.copy j' n m seq) : Sequence job j' n m seq := ⟨h.computed, h.counts, h.pages⟩

/-! ## The property -/

theorem default_raster {target : Bytes} (ht : target = pwg ∨ target = urf) : getConvertFun defaultPipelines pdf target = some .pdf2Printable := by
  rcases ht with rfl | rfl <;> decide +kernel

/-- The job and the document, with the conversion functions as they are. -/
theorem delivered {t : Tools} {inFile : Bytes} {env : Env} (hconv : env.convert = convert t inFile) (hpl : env.pipelines = defaultPipelines) {p : Printer} {job : PrintJob}
    {input fileName : Bytes} {pages : Int} (hfile : ¬ IsFile p) (h : (runJob env p job input fileName pages).out = .ok none) :
    ∃ j' f, finalize defaultPipelines input pages job.copy = .ok (none, j') ∧ getConvertFun defaultPipelines input j'.targetFormat = some f ∧
      (convert t inFile f j').2 = .ok none ∧ document (runJob env p job input fileName pages).events = (convert t inFile f j').1.flatten := by
  obtain ⟨j', f, h1, h2, h3, h4, _⟩ := C57_document env p job input fileName pages hfile h
  rw [hpl] at h1 h2
  rw [hconv] at h3 h4
  exact ⟨j', f, h1, h2, h3, h4⟩

/-- **C90, PWG.** When the printing of a PDF file as PWG raster is reported as a success, then for every printer, job, document and renderer: the data that was sent is a PWG raster file
with the pages of the document that the job asks for, each of them drawn on white paper of the size asked for, in color or gray; what the job asks for is divided
between this program and the printer in such a way that every page comes out as often as the page ranges name it times the number of copies. -/
theorem C90_pwg (t : Tools) (inFile : Bytes) (env : Env) (hconv : env.convert = convert t inFile) (hpl : env.pipelines = defaultPipelines) (p : Printer) (hfile : ¬ IsFile p)
    (job : PrintJob) (hfresh : job.params = {}) (hr : RangesFit job) (n : Int) (hn : Copies job n) (fileName : Bytes) (pages : Int)
    (hdraw : ∀ k sc img, ((t.pdf inFile).draw k sc img).length = img.length) (h : (runJob env p job pdf fileName pages).out = .ok none) :
    ∃ j', finalize defaultPipelines pdf pages job.copy = .ok (none, j') ∧ (j'.targetFormat = pwg → Fits (printParams j') →
      ∃ m seq bmps outs, (t.pdf inFile).pages = some m ∧ Sequence job j' n m seq ∧
        All2 (fun q bmp => Bitmap t (printParams j') (Pdf.Spec.picture (t.pdf inFile) j'.paper (printParams j') q) bmp) seq bmps ∧
        readRaster (document (runJob env p job pdf fileName pages).events) = .ok (.pwg outs) ∧ All2 ShowsPwg (Pdf.numbered (printParams j') 0 bmps) outs ∧
        Raster.Spec.PwgDocument (Pdf.numbered (printParams j') 0 bmps) (document (runJob env p job pdf fileName pages).events)) := by
  obtain ⟨j', f, h1, h2, h3, h4⟩ := delivered hconv hpl hfile h
  refine ⟨j', h1, fun ht hfit => ?_⟩
  rw [default_raster (.inl ht)] at h2
  cases h2
  have hf : (printParams j').format = .PWG := ((C34_format _ _ _ _ _ h1).1).2 ⟨rfl, ht⟩
  obtain ⟨m, seq, bmps, outs, g1, g2, g3, g4, g5, g6⟩ := Pdf.C48_success_pwg hf hfit hdraw (render_ok h3)
  refine ⟨m, seq, bmps, outs, g1, sequence_copy (sequence_of h1 hfresh hr hn (.inl ht) g2), ?_, by rw [h4]; exact g4, g5, by rw [h4]; exact g6⟩
  refine Raster.All2.imp_mem g3 ?_
  intro q _ bmp _ hb
  exact bitmap_of (p := printParams j') (colors_fresh h1 hfresh) (Pdf.picture_length hdraw q) hb

/-- **C90, URF.** Likewise; the header has the number of pages. -/
theorem C90_urf (t : Tools) (inFile : Bytes) (env : Env) (hconv : env.convert = convert t inFile) (hpl : env.pipelines = defaultPipelines) (p : Printer) (hfile : ¬ IsFile p)
    (job : PrintJob) (hfresh : job.params = {}) (hr : RangesFit job) (n : Int) (hn : Copies job n) (fileName : Bytes) (pages : Int)
    (hdraw : ∀ k sc img, ((t.pdf inFile).draw k sc img).length = img.length) (h : (runJob env p job pdf fileName pages).out = .ok none) :
    ∃ j', finalize defaultPipelines pdf pages job.copy = .ok (none, j') ∧ (j'.targetFormat = urf → Fits (printParams j') →
      ∃ m seq, (t.pdf inFile).pages = some m ∧ Sequence job j' n m seq ∧ (seq.length < 2 ^ 32 → ∃ bmps outs,
        All2 (fun q bmp => Bitmap t (printParams j') (Pdf.Spec.picture (t.pdf inFile) j'.paper (printParams j') q) bmp) seq bmps ∧
        readRaster (document (runJob env p job pdf fileName pages).events) = .ok (.urf seq.length outs) ∧
        All2 ShowsUrf (Pdf.numbered (printParams j') 0 bmps) outs ∧
        Raster.Spec.UrfDocument seq.length (Pdf.numbered (printParams j') 0 bmps) (document (runJob env p job pdf fileName pages).events))) := by
  obtain ⟨j', f, h1, h2, h3, h4⟩ := delivered hconv hpl hfile h
  refine ⟨j', h1, fun ht hfit => ?_⟩
  rw [default_raster (.inr ht)] at h2
  cases h2
  have hf : (printParams j').format = .URF := ((C34_format _ _ _ _ _ h1).2).2 ⟨rfl, ht⟩
  obtain ⟨m, seq, g1, g2, g⟩ := Pdf.C48_success_urf hf hfit hdraw (render_ok h3)
  refine ⟨m, seq, g1, sequence_copy (sequence_of h1 hfresh hr hn (.inr ht) g2), fun hlen => ?_⟩
  obtain ⟨bmps, outs, g3, g4, g5, g6⟩ := g hlen
  refine ⟨bmps, outs, ?_, by rw [h4]; exact g4, g5, by rw [h4]; exact g6⟩
  refine Raster.All2.imp_mem g3 ?_
  intro q _ bmp _ hb
  exact bitmap_of (p := printParams j') (colors_fresh h1 hfresh) (Pdf.picture_length hdraw q) hb

/-- What a surface for PDF or PostScript writes: after each page, and at the end. -/
def Spec.surfaceBytes (lib : Pdf.Library) (done : List Pdf.Drawn) : List Pdf.Drawn → Bytes
  | [] => lib.finished done
  | d :: rest => lib.shown (done ++ [d]) ++ surfaceBytes lib (done ++ [d]) rest

theorem pages_shown {lum : Pdf.Luminosity} {lib : Pdf.Library} {paper : Paper} {p : Params} (hf : p.format = .PDF ∨ p.format = .Postscript) {k : Nat} {drawn : List Pdf.Drawn}
    {seq : List Nat} {bs : List Bytes} (h : Pdf.Spec.Pages lum lib paper p k drawn seq bs) :
    bs.flatten ++ lib.finished (drawn ++ seq.map (Pdf.Spec.drawing lib paper p)) = Spec.surfaceBytes lib drawn (seq.map (Pdf.Spec.drawing lib paper p)) := by
  induction h with
  | nil => simp [Spec.surfaceBytes]
  | @cons k drawn q rest b bs _ hb _ ih =>
    have hb : b = lib.shown (drawn ++ [Pdf.Spec.drawing lib paper p q]) := by
      unfold Pdf.Spec.bytes at hb
      rcases hf with hf | hf <;> simp only [hf] at hb <;> cases hb <;> rfl
    simp only [List.map_cons, Spec.surfaceBytes, List.flatten_cons, ← ih, hb, List.append_assoc, List.cons_append, List.nil_append]

/-- **C90, PDF and PostScript.** The data that was sent is what the library writes for the pages of the document that the page ranges name, drawn in their order, once; the number of copies
is left to the printer. -/
theorem C90_vector (t : Tools) (inFile : Bytes) (env : Env) (hconv : env.convert = convert t inFile) (hpl : env.pipelines = defaultPipelines) (p : Printer) (hfile : ¬ IsFile p)
    (job : PrintJob) (hfresh : job.params = {}) (hr : RangesFit job) (n : Int) (hn : Copies job n) (fileName : Bytes) (pages : Int)
    (h : (runJob env p job pdf fileName pages).out = .ok none) :
    ∃ j', finalize defaultPipelines pdf pages job.copy = .ok (none, j') ∧ (j'.targetFormat = pdf ∨ j'.targetFormat = postscript →
      ∃ m seq, (t.pdf inFile).pages = some m ∧ j'.params.pageSequence m = .ok seq ∧ (∀ q, seq.count q = named job m q) ∧
        KMap.get? j'.jobAttrs (ascii "copies") = KMap.get? job.jobAttrs (ascii "copies") ∧
        document (runJob env p job pdf fileName pages).events =
          Spec.surfaceBytes (t.pdf inFile) [] (seq.map (Pdf.Spec.drawing (t.pdf inFile) j'.paper (printParams j')))) := by
  obtain ⟨j', f, h1, h2, h3, h4⟩ := delivered hconv hpl hfile h
  refine ⟨j', h1, fun ht => ?_⟩
  have hfun : getConvertFun defaultPipelines pdf j'.targetFormat = some .pdf2Printable := by
    rcases ht with ht | ht <;> rw [ht] <;> decide +kernel
  rw [hfun] at h2
  cases h2
  have hfmt : (printParams j').format = .PDF ∨ (printParams j').format = .Postscript := by
    obtain ⟨r⟩ := finalize_run h1
    have hb := before_raster r
    have hf := adjustRaster_frame r.h8
    have ha := after_frame r
    have e : j'.params.format = formatOf pdf j'.targetFormat := by
      rw [ha.format, hf.format, hb.format, ha.targetFormat, hf.targetFormat, hb.targetFormat]
    rcases ht with ht | ht
    · left; show j'.params.format = _; rw [e, ht]; decide +kernel
    · right; show j'.params.format = _; rw [e, ht]; decide +kernel
  obtain ⟨m, seq, bs, g1, g2, g3, _, _, g4⟩ := Pdf.C48_success (render_ok h3)
  have hraster : isPrinterRaster j'.targetFormat = false := by rcases ht with ht | ht <;> rw [ht] <;> decide +kernel
  have hc := (C31_copies_once _ _ _ _ _ h1 (by show job.params.copies = 1; rw [hfresh]) n hn.1 hn.2).1
  obtain ⟨hattr, hone⟩ : KMap.get? j'.jobAttrs (ascii "copies") = KMap.get? job.jobAttrs (ascii "copies") ∧ j'.params.copies = 1 := by
    rcases hc with hc | ⟨_, _, _, _, _, hc⟩
    · exact hc
    · rw [hraster] at hc; cases hc
  refine ⟨m, seq, g1, g2, fun q => ?_, hattr, ?_⟩
  · by_cases hq : q = 0
    · subst hq
      have hnm : named job m 0 = 0 := by unfold named; rw [if_pos (.inl rfl)]
      rw [hnm]
      apply List.count_eq_zero.2
      intro hmem
      have g2 : j'.params.pageSequence m = .ok seq := g2
      unfold Params.pageSequence at g2
      simp only [] at g2
      rw [if_neg (by omega)] at g2
      cases g2
      obtain ⟨r, hrm, hlow, _⟩ := (mem_selectedPages _ m 0).1 hmem
      obtain ⟨_, rs, hrs, hall⟩ := (C32_page_ranges_once _ _ _ _ _ h1).1 rfl
      rw [show job.copy.params.pageRangeList = [] by show job.params.pageRangeList = []; rw [hfresh], List.nil_append] at hrs
      rw [hrs] at hrm
      split at hrm
      · simp only [List.mem_cons, List.not_mem_nil, or_false] at hrm
        subst hrm
        have : 1 ≤ 0 := hlow
        omega
      · obtain ⟨v, hv, low, high, rfl, e1, _⟩ := all2_mem_right' hall hrm
        obtain ⟨p1, p2, _⟩ := hr low high hv
        have := e1 (by omega) (by omega)
        omega
    · rw [sequence_counts h1 (by show job.params.pageRangeList = []; rw [hfresh]) hr (by omega) g2 q (by omega), hone, Nat.one_mul]
      rfl
  · have hsplit : ¬ ((printParams j').format = .PWG ∨ (printParams j').format = .URF) := by rcases hfmt with e | e <;> rw [e] <;> decide
    have hhdr : Pdf.Spec.header (printParams j') seq.length = [] := by unfold Pdf.Spec.header; rcases hfmt with e | e <;> rw [e]
    rw [h4]
    show (Pdf.blocks _).flatten = _
    rw [g4, Pdf.blocks_ideal, if_neg hsplit, hhdr, List.nil_append, ← pages_shown hfmt g3, List.nil_append]

/-- **C90, other files.** A file in a format that the printer takes as it is (neither PDF, JPEG nor plain text) is sent byte for byte. -/
theorem C90_upload (t : Tools) (inFile : Bytes) (env : Env) (hconv : env.convert = convert t inFile) (hpl : env.pipelines = defaultPipelines) (p : Printer) (hfile : ¬ IsFile p)
    (job : PrintJob) (input fileName : Bytes) (pages : Int) (hi : input ≠ pdf ∧ input ≠ jpeg ∧ input ≠ ascii "text/plain")
    (h : (runJob env p job input fileName pages).out = .ok none) : t.read inFile = some (document (runJob env p job input fileName pages).events) := by
  obtain ⟨j', f, h1, h2, h3, h4⟩ := delivered hconv hpl hfile h
  have hfun : f = .justUpload := by
    have hnone : findFun (input, j'.targetFormat) defaultPipelines = none := by
      simp only [findFun, defaultPipelines, Prod.mk.injEq]
      rw [if_neg (fun e => hi.1 e.1.symm), if_neg (fun e => hi.1 e.1.symm), if_neg (fun e => hi.1 e.1.symm), if_neg (fun e => hi.1 e.1.symm),
        if_neg (fun e => hi.2.1 e.1.symm), if_neg (fun e => hi.2.2 e.1.symm)]
    unfold getConvertFun at h2
    rw [hnone] at h2
    simp only [] at h2
    split at h2
    · cases h2; rfl
    · cases h2
  subst hfun
  rw [h4]
  simp only [convert, wholeFile] at h3 ⊢
  cases hread : t.read inFile with
  | none => rw [hread] at h3; cases h3
  | some b => simp

/-- What is not PDF is only converted to its own format. -/
theorem same_format {input target : Bytes} {f : ConvertFun} (hi : input ≠ pdf) (h : getConvertFun defaultPipelines input target = some f) : target = input := by
  unfold getConvertFun at h
  by_cases e : input = target
  · exact e.symm
  · have hnone : findFun (input, target) defaultPipelines = none := by
      simp only [findFun, defaultPipelines, Prod.mk.injEq]
      rw [if_neg (fun x => hi x.1.symm), if_neg (fun x => hi x.1.symm), if_neg (fun x => hi x.1.symm), if_neg (fun x => hi x.1.symm),
        if_neg (fun x => e (x.1.symm.trans x.2)), if_neg (fun x => e (x.1.symm.trans x.2))]
    rw [hnone] at h
    simp only [if_neg e] at h
    cases h

/-- The full claim for plain text: every line end comes out as one CR LF. -/
def C90_text_full : Prop :=
  ∀ (t : Tools) (inFile : Bytes) (env : Env), env.convert = convert t inFile → env.pipelines = defaultPipelines → ∀ (p : Printer), ¬ IsFile p →
    ∀ (job : PrintJob) (fileName : Bytes) (pages : Int) (first : Bytes) (rest : List (Text.LineEnd × Bytes)), Text.Lines first rest →
    t.read inFile = some (Text.textOf first rest) → (runJob env p job (ascii "text/plain") fileName pages).out = .ok none →
    document (runJob env p job (ascii "text/plain") fileName pages).events = Text.wantedText first rest

/-- **C90, plain text.** Every line end of a text comes out as CR LF; but those that are CR LF already come out twice (C19), which is what is missing. -/
theorem C90_text_partial (t : Tools) (inFile : Bytes) (env : Env) (hconv : env.convert = convert t inFile) (hpl : env.pipelines = defaultPipelines) (p : Printer) (hfile : ¬ IsFile p)
    (job : PrintJob) (fileName : Bytes) (pages : Int) (first : Bytes) (rest : List (Text.LineEnd × Bytes)) (hl : Text.Lines first rest)
    (hread : t.read inFile = some (Text.textOf first rest)) (h : (runJob env p job (ascii "text/plain") fileName pages).out = .ok none) :
    document (runJob env p job (ascii "text/plain") fileName pages).events = Text.producedText first rest := by
  obtain ⟨j', f, h1, h2, h3, h4⟩ := delivered hconv hpl hfile h
  rw [same_format (by decide) h2] at h2
  have : getConvertFun defaultPipelines (ascii "text/plain") (ascii "text/plain") = some .fixupText := by decide +kernel
  rw [this] at h2
  cases h2
  rw [h4]
  simp only [convert, wholeFile, hread, List.flatten_cons, List.flatten_nil, List.append_nil]
  exact Text.C19_line_ends_exact_partial first rest hl

/-- **C90, JPEG.** The data that was sent is a JPEG file with the same picture, in baseline form. Missing: that the colors are the same, which is not always so (C80). -/
theorem C90_jpeg_partial (t : Tools) (hl : Jpeg.Spec.Sound t.jpeg) (hb : t.buffer ≠ []) (inFile : Bytes) (env : Env) (hconv : env.convert = convert t inFile) (hpl : env.pipelines = defaultPipelines)
    (p : Printer) (hfile : ¬ IsFile p) (job : PrintJob) (fileName : Bytes) (pages : Int) (file : Bytes) (pic : Jpeg.Picture) (hread : t.read inFile = some file)
    (hpic : Jpeg.Spec.Reads t.jpeg file pic) (h : (runJob env p job jpeg fileName pages).out = .ok none) :
    ∃ pic', Jpeg.Spec.Reads t.jpeg (document (runJob env p job jpeg fileName pages).events) pic' ∧ pic'.critical = pic.critical ∧ pic'.ids = pic.ids ∧ pic'.coefs = pic.coefs ∧
      pic'.markers.Sublist pic.markers := by
  obtain ⟨j', f, h1, h2, h3, h4⟩ := delivered hconv hpl hfile h
  rw [same_format (by decide) h2] at h2
  have : getConvertFun defaultPipelines jpeg jpeg = some .baselinify := by decide +kernel
  rw [this] at h2
  cases h2
  obtain ⟨bytes, pic', g1, g2, g3, g4, g5, g6, _⟩ := Jpeg.C80_picture_partial hl hb hpic []
  refine ⟨pic', ?_, g3, g4, g5, g6⟩
  rw [h4]
  simp only [convert, wholeFile, hread, makeBaseline, g1, List.nil_append, List.flatten_cons, List.flatten_nil, List.append_nil]
  exact g2

/-! ## Examples, and what does not hold -/

/-- files, a document of three black pages, a toy libjpeg -/
def exTools : Tools :=
  { read := fun name => if name = ascii "/tmp/a.txt" then some (ascii "a\r\nb") else if name = ascii "/tmp/a.png" then some [1, 2, 3] else if name = ascii "/tmp/a.jpg" then some [255, 216, 1, 217] else none
    pdf := fun _ => Pdf.exLibrary
    jpeg := Jpeg.toy
    buffer := [0]
    taken := fun _ => true
    text := fun _ => []
    user := fun _ _ _ => ([], .ok none) }

/-- replies of a printer that takes everything -/
def exEnv (inFile : Bytes) : Env := { Printer.exampleEnv with convert := convert exTools inFile }

/-- a printer that takes these formats -/
def exPrinter (formats : List Bytes) : Printer := { addr := ascii "ipp://x/ipp/print", attrs := [(ascii "document-format-supported", (0x49, .set (formats.map .str)))] }

/-- pages 2 and 3 twice, on very small paper -/
def exJob (formats : List Bytes) : PrintJob :=
  { PrintJob.new (exPrinter formats).attrs [] with
    jobAttrs := [(ascii "copies", (0x21, .int 2)), (ascii "media", (0x44, .str (ascii "na_dot_0.01x0.01in"))), (ascii "page-ranges", (0x33, .set [.range 2 3]))] }

theorem exPrinter_real (formats : List Bytes) : ¬ IsFile (exPrinter formats) := by
  unfold IsFile
  show ¬ ascii "file://" <+: ascii "ipp://x/ipp/print"
  decide +kernel

theorem exJob_ranges (formats : List Bytes) : RangesFit (exJob formats) := by
  intro low high h
  have : values (KMap.get? (exJob formats).jobAttrs (ascii "page-ranges")) = [.range 2 3] := by
    show values (KMap.get? [(ascii "copies", (0x21, .int 2)), (ascii "media", (0x44, .str (ascii "na_dot_0.01x0.01in"))), (ascii "page-ranges", (0x33, .set [.range 2 3]))]
      (ascii "page-ranges")) = _
    decide +kernel
  rw [this] at h
  simp only [List.mem_cons, List.not_mem_nil, or_false] at h
  cases h
  decide

/-- A finalized job for a page of three by three pixels. -/
def exFits (formats : List Bytes) : Bool :=
  match finalize defaultPipelines pdf 3 (exJob formats).copy with
  | .ok (none, j) =>
    let p := printParams j
    decide (p.widthPx = 3 ∧ p.heightPx = 3 ∧ p.colorMode = .Gray8 ∧ p.hwResW = 300 ∧ p.hwResH = 300 ∧ p.widthPt = 1 ∧ p.heightPt = 1 ∧ p.mediaPosition = 0 ∧ p.mediaType = [] ∧
      p.paperSizeName = ascii "na_dot_0.01x0.01in")
  | _ => false

theorem exFits_ok {formats : List Bytes} (h : exFits formats = true) {j' : PrintJob} (hj : finalize defaultPipelines pdf 3 (exJob formats).copy = .ok (none, j')) :
    Fits (printParams j') := by
  unfold exFits at h
  rw [hj] at h
  simp only [decide_eq_true_eq] at h
  obtain ⟨h1, h2, h3, h4, h5, h6, h7, h8, h9, h10⟩ := h
  refine ⟨?_, ?_, ?_, ?_, ?_, ?_, ?_, ?_, ?_, ?_⟩
  all_goals simp only [h1, h2, h3, h4, h5, h6, h7, h8, h9, h10]
  all_goals decide +kernel

/-- The hypotheses of `C90_pwg` are met: the job is sent, in gray, and pages 2 and 3 are in the document twice. -/
example : ¬ IsFile (exPrinter [pwg]) ∧ (exJob [pwg]).params = {} ∧ RangesFit (exJob [pwg]) ∧ Copies (exJob [pwg]) 2 ∧
    (runJob (exEnv (ascii "/tmp/a.pdf")) (exPrinter [pwg]) (exJob [pwg]) pdf (ascii "a.pdf") 3).out = .ok none ∧
    (∀ j', finalize defaultPipelines pdf 3 (exJob [pwg]).copy = .ok (none, j') → Fits (printParams j')) ∧
    (document (runJob (exEnv (ascii "/tmp/a.pdf")) (exPrinter [pwg]) (exJob [pwg]) pdf (ascii "a.pdf") 3).events).length = 4 + 4 * 1799 :=
  ⟨exPrinter_real _, rfl, exJob_ranges _, ⟨by decide +kernel, by decide⟩, by decide +kernel, fun _ => exFits_ok (by decide +kernel), by decide +kernel⟩

/-- Those of `C90_urf` too -/
example : ¬ IsFile (exPrinter [urf]) ∧ (exJob [urf]).params = {} ∧ RangesFit (exJob [urf]) ∧ Copies (exJob [urf]) 2 ∧
    (runJob (exEnv (ascii "/tmp/a.pdf")) (exPrinter [urf]) (exJob [urf]) pdf (ascii "a.pdf") 3).out = .ok none ∧
    (∀ j', finalize defaultPipelines pdf 3 (exJob [urf]).copy = .ok (none, j') → Fits (printParams j')) ∧
    (document (runJob (exEnv (ascii "/tmp/a.pdf")) (exPrinter [urf]) (exJob [urf]) pdf (ascii "a.pdf") 3).events).take 12 = ascii "UNIRAST" ++ [0, 0, 0, 0, 4] :=
  ⟨exPrinter_real _, rfl, exJob_ranges _, ⟨by decide +kernel, by decide⟩, by decide +kernel, fun _ => exFits_ok (by decide +kernel), by decide +kernel⟩

/-- PDF: a block for each of two pages, and one at the end. -/
example : ¬ IsFile (exPrinter [pdf]) ∧ RangesFit (exJob [pdf]) ∧ Copies (exJob [pdf]) 2 ∧
    (runJob (exEnv (ascii "/tmp/a.pdf")) (exPrinter [pdf]) (exJob [pdf]) pdf (ascii "a.pdf") 3).out = .ok none ∧
    document (runJob (exEnv (ascii "/tmp/a.pdf")) (exPrinter [pdf]) (exJob [pdf]) pdf (ascii "a.pdf") 3).events = [1, 1, 2] :=
  ⟨exPrinter_real _, exJob_ranges _, ⟨by decide +kernel, by decide⟩, by decide +kernel, by decide +kernel⟩

/-- A picture is uploaded. -/
example : (runJob (exEnv (ascii "/tmp/a.png")) (exPrinter [ascii "image/png"]) (exJob [ascii "image/png"]) (ascii "image/png") (ascii "a.png") 1).out = .ok none ∧
    document (runJob (exEnv (ascii "/tmp/a.png")) (exPrinter [ascii "image/png"]) (exJob [ascii "image/png"]) (ascii "image/png") (ascii "a.png") 1).events = [1, 2, 3] := by
  decide +kernel

/-- A JPEG file is read and written. -/
example : Jpeg.Spec.Sound exTools.jpeg ∧ exTools.buffer ≠ [] ∧ exTools.read (ascii "/tmp/a.jpg") = some [255, 216, 1, 217] ∧
    Jpeg.Spec.Reads exTools.jpeg [255, 216, 1, 217] ⟨[1], [1, 2, 3, 4], [9, 8], []⟩ ∧
    (runJob (exEnv (ascii "/tmp/a.jpg")) (exPrinter [jpeg]) (exJob [jpeg]) jpeg (ascii "a.jpg") 1).out = .ok none :=
  ⟨Jpeg.toy_sound, by decide, by decide +kernel, rfl, by decide +kernel⟩

/-- **C90, plain text, where it fails.** -/
theorem C90_text_false : ¬ C90_text_full := by
  intro h
  have := h exTools (ascii "/tmp/a.txt") (exEnv (ascii "/tmp/a.txt")) rfl rfl (exPrinter [ascii "text/plain"]) (exPrinter_real _) (exJob [ascii "text/plain"]) (ascii "a.txt") 1
    (ascii "a") [(.crlf, ascii "b")] ⟨by decide +kernel, by show (10 : UInt8) ∉ ascii "b"; decide +kernel⟩ (by decide +kernel) (by decide +kernel)
  revert this
  decide +kernel

end Verif.Deliver
