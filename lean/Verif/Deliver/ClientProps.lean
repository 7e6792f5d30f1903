import Verif.Deliver.Props
import Verif.Client.SentProps
import Verif.Client.SavedProps
import Verif.Printer.ReplyProps

/-!
# Property C91: from the command line of `ippclient print` to the document that a printer gets
-/

namespace Verif.Deliver

open Ipp.Spec Job Job.Spec Printer Printer.Spec Raster Raster.Spec Client Client.Spec Tools.Spec Verif.Deliver.Spec

/-! ## Specification -/

namespace Spec

/-- Page `q` of a document of `m` pages is asked for: it is one of the pages after `--pages`, if that is given. -/
def PageAsked (o : Options) (m q : Nat) : Prop :=
  1 ≤ q ∧ q ≤ m ∧ (o.pages = none ∨ ∃ text rs, o.pages = some text ∧ DenotesRanges text rs ∧ ∃ r ∈ rs, r.1 ≤ q ∧ q ≤ r.2)

/-- The number of copies asked for: that after `--copies`, else the printer's default, else one. -/
def CopiesAsked (p : Printer) (o : Options) (n : Int) : Prop :=
  1 ≤ n ∧ (o.copies = some n ∨ (o.copies = none ∧ ((KMap.get? p.attrs (ascii "copies-default")).map Prod.snd).getD (.int 1) = .int n))

/-- Nothing is saved for the printer, or it is not to be used. -/
def NothingSaved (w : World) (p : Printer) (o : Options) : Prop :=
  o.save = true ∨ KMap.get? p.attrs (ascii "printer-uuid") = none ∨
    ∃ tag uuid, KMap.get? p.attrs (ascii "printer-uuid") = some (tag, .str uuid) ∧ w.store uuid = none

/-- Options with what earlier ones leave: each setting is that of the options themselves, else the earlier one. The resolution is one setting, however it is given, and so is each margin.
Only settings are kept: neither the type of the input nor what is to be done otherwise. -/
def over (o s : Options) : Options :=
  { o with
    pages := o.pages.or s.pages, copies := o.copies.or s.copies, collatedCopies := o.collatedCopies.or s.collatedCopies, paperSize := o.paperSize.or s.paperSize,
    hwRes := if (resolution o).isSome then o.hwRes else s.hwRes, hwResX := if (resolution o).isSome then o.hwResX else s.hwResX,
    hwResY := if (resolution o).isSome then o.hwResY else s.hwResY,
    sides := o.sides.or s.sides, colorMode := o.colorMode.or s.colorMode, quality := o.quality.or s.quality, scaling := o.scaling.or s.scaling, format := o.format.or s.format,
    mediaType := o.mediaType.or s.mediaType, mediaSource := o.mediaSource.or s.mediaSource, outputBin := o.outputBin.or s.outputBin, finishing := o.finishing.or s.finishing,
    margin := none, topMargin := (o.topMargin.or o.margin).or (s.topMargin.or s.margin), bottomMargin := (o.bottomMargin.or o.margin).or (s.bottomMargin.or s.margin),
    leftMargin := (o.leftMargin.or o.margin).or (s.leftMargin.or s.margin), rightMargin := (o.rightMargin.or o.margin).or (s.rightMargin.or s.margin) }

/-- The use of `print` with the options `o` starts from the options `s`: there are none, as nothing is saved for the printer; or they are those of an earlier use with
`--save` for the same printer that ended with 0, and no other was saved for the printer since. -/
def Starts (w : World) (p : Printer) (o s : Options) : Prop :=
  (NothingSaved w p o ∧ s = {}) ∨
    ∃ (s0 s1 : Ipp.Store) (r : Run) (later : List Run) (u : Bytes), r.o = s ∧ Uuid r.p u ∧ r.o.save = true ∧ r.Ends s0 0 s1 ∧ History s1 later w.store ∧
      (∀ x ∈ later, x.o.save = false ∨ ¬ Uuid x.p u) ∧ Uuid p u ∧ o.save = false

/-- The sequence of the pages in a document that is sent, for a job that is sent with the attributes `sent`: together with the copies that the printer makes, each page that is
asked for comes out as often as copies are asked for, and no other page at all. -/
def Comes (p : Printer) (o : Options) (n : Int) (m : Nat) (sent : Ipp.Attrs) (seq : List Nat) : Prop :=
  (∀ q ∈ seq, q ≤ m) ∧ ∃ k, PrinterMakes p.attrs sent k ∧ ∀ q, 1 ≤ q → (PageAsked o m q → (seq.count q : Int) * k = n) ∧ (¬ PageAsked o m q → seq.count q = 0)

end Spec

open Verif.Deliver.Spec

/-! ## Proofs -/

theorem countP_one {rs : List (Nat × Nat)} (h : AscendingRanges rs) (q : Nat) :
    rs.countP (fun r => decide (r.1 ≤ q ∧ q ≤ r.2)) = if ∃ r ∈ rs, r.1 ≤ q ∧ q ≤ r.2 then 1 else 0 := by
  obtain ⟨h1, h2⟩ := h
  induction rs with
  | nil => simp
  | cons r rs ih =>
    rw [List.countP_cons]
    obtain ⟨g1, g2⟩ := List.pairwise_cons.1 h1
    rw [ih g2 (fun x hx => h2 x (List.mem_cons_of_mem _ hx))]
    by_cases hr : r.1 ≤ q ∧ q ≤ r.2
    · have hno : ¬ ∃ x ∈ rs, x.1 ≤ q ∧ q ≤ x.2 := by
        rintro ⟨x, hx, hx1, _⟩
        have := g1 x hx
        omega
      rw [if_neg hno, if_pos (by simpa using hr), if_pos ⟨r, List.mem_cons_self, hr⟩]
    · have hr' : ¬ decide (r.1 ≤ q ∧ q ≤ r.2) = true := by simpa using hr
      rw [if_neg hr', Nat.add_zero]
      by_cases hx : ∃ x ∈ rs, x.1 ≤ q ∧ q ≤ x.2
      · obtain ⟨x, hx, hx1⟩ := hx
        rw [if_pos ⟨x, hx, hx1⟩, if_pos ⟨x, List.mem_cons_of_mem _ hx, hx1⟩]
      · rw [if_neg hx, if_neg]
        rintro ⟨x, hm, hx1⟩
        rcases List.mem_cons.1 hm with rfl | hm
        · exact hr hx1
        · exact hx ⟨x, hm, hx1⟩

theorem denotes_unique {text : Bytes} {rs rs' : List (Nat × Nat)} (h : DenotesRanges text rs) (h' : DenotesRanges text rs') : rs = rs' := by
  have ne : ∀ {rs}, DenotesRanges text rs → rs ≠ [] := by
    rintro rs ⟨items, hi, ha, _⟩ rfl
    cases ha
    exact hi rfl
  obtain ⟨h1, _⟩ := C14_page_ranges_partial text
  have e1 := (h1 rs (ne h)).2 h
  have e2 := (h1 rs' (ne h')).2 h'
  rw [e1] at e2
  cases e2; rfl

/-- What the text after `--pages` comes to, as the page ranges of a job. -/
theorem named_asked {o : Options} {v : Option Ipp.Value} {j : PrintJob} (hv : PagesGive o v)
    (hj : KMap.get? j.jobAttrs (ascii "page-ranges") = v.map (fun x => (0x33, x))) :
    RangesFit j ∧ ∀ m q, m < 2147483647 → (PageAsked o m q → named j m q = 1) ∧ (¬ PageAsked o m q → named j m q = 0) := by
  rcases hv with ⟨ho, rfl⟩ | ⟨text, rs, ho, hd, rfl⟩
  · have hj : KMap.get? j.jobAttrs (ascii "page-ranges") = none := hj
    refine ⟨fun low high h => ?_, fun m q _ => ⟨fun hq => ?_, fun hq => ?_⟩⟩
    · rw [hj] at h; cases h
    · unfold named
      rw [hj, if_neg (by have := hq.1; have := hq.2.1; omega)]
      rfl
    · unfold named
      rw [if_pos]
      apply Classical.byContradiction
      intro hc
      exact hq ⟨by omega, by omega, .inl ho⟩
  · have hj : KMap.get? j.jobAttrs (ascii "page-ranges") = some (0x33, rangesValue rs) := hj
    have hvals : values (KMap.get? j.jobAttrs (ascii "page-ranges")) =
        rs.map (fun r => .range ((min r.1 2147483647 : Nat) : Int) ((min r.2 2147483647 : Nat) : Int)) := by rw [hj]; rfl
    obtain ⟨items, hitems, hall, hasc, hs⟩ := hd
    have hd : DenotesRanges text rs := ⟨items, hitems, hall, hasc, hs⟩
    refine ⟨fun low high h => ?_, fun m q hm => ?_⟩
    · rw [hvals] at h
      obtain ⟨r, hr, he⟩ := List.mem_map.1 h
      obtain ⟨h1, h2⟩ := hasc.2 r hr
      injection he with e1 e2
      omega
    · have hnamed : named j m q = if q = 0 ∨ m < q then 0 else if ∃ r ∈ rs, r.1 ≤ q ∧ q ≤ r.2 then 1 else 0 := by
        unfold named
        rw [hvals]
        by_cases h0 : q = 0 ∨ m < q
        · rw [if_pos h0, if_pos h0]
        rw [if_neg h0, if_neg h0, ← countP_one hasc]
        cases hrs : rs with
        | nil => subst hrs; cases hall; exact absurd rfl hitems
        | cons r rest =>
          rw [← hrs]
          have : rs.map (fun r => Ipp.Value.range ((min r.1 2147483647 : Nat) : Int) ((min r.2 2147483647 : Nat) : Int)) ≠ [] := by rw [hrs]; simp
          split
          · contradiction
          · rw [List.countP_map]
            apply List.countP_congr
            intro x hx
            simp only [Function.comp, decide_eq_true_eq]
            omega
      have hiff : PageAsked o m q ↔ ¬ (q = 0 ∨ m < q) ∧ ∃ r ∈ rs, r.1 ≤ q ∧ q ≤ r.2 := by
        constructor
        · rintro ⟨h1, h2, h3 | ⟨text', rs', h3, h4, h5⟩⟩
          · rw [ho] at h3; cases h3
          · rw [ho] at h3; cases h3
            rw [denotes_unique hd h4]
            exact ⟨by omega, h5⟩
        · rintro ⟨h1, h2⟩
          exact ⟨by omega, by omega, .inr ⟨text, rs, ho, hd, h2⟩⟩
      rw [hnamed, hiff]
      by_cases h0 : q = 0 ∨ m < q
      · rw [if_pos h0]
        exact ⟨fun h => absurd h0 h.1, fun _ => rfl⟩
      · rw [if_neg h0]
        by_cases h1 : ∃ r ∈ rs, r.1 ≤ q ∧ q ≤ r.2
        · rw [if_pos h1]; exact ⟨fun _ => rfl, fun h => absurd ⟨h0, h1⟩ h⟩
        · rw [if_neg h1]; exact ⟨fun h => absurd h.2 h1, fun _ => rfl⟩

theorem at_none (q : Place) : at_ ([] : Ipp.Attrs) q = none := by
  unfold at_
  split <;> rfl

theorem resolution_over (o s : Options) : resolution (over o s) = (resolution o).or (resolution s) := by
  cases h : (resolution o).isSome with
  | true =>
    have e : resolution (over o s) = resolution o := by
      unfold resolution over
      rw [h]
      simp only [if_true]
    rw [e]
    obtain ⟨v, hv⟩ := Option.isSome_iff_exists.mp h
    rw [hv]; rfl
  | false =>
    have hn : resolution o = none := by simpa using h
    have e : resolution (over o s) = resolution s := by
      unfold resolution over
      rw [h]
      simp only [Bool.false_eq_true, if_false]
    rw [e, hn]; rfl

/-- What comes of options after what came of earlier ones. -/
theorem become_over {o s : Options} {po ps : Option Ipp.Value} {j0 j : Ipp.Attrs} (h0 : Become (wanted s ps) [] j0) (h1 : Become (wanted o po) j0 j) :
    Become (wanted (over o s) (po.or ps)) [] j := by
  have places : ∀ q : Place, (∀ x ∈ wanted (over o s) (po.or ps), x.1 ≠ q) → (∀ x ∈ wanted o po, x.1 ≠ q) ∧ ∀ x ∈ wanted s ps, x.1 ≠ q := by
    intro q hq
    simp only [wanted, List.forall_mem_cons] at hq ⊢
    exact ⟨hq, hq⟩
  refine ⟨?_, fun q hq hc => ?_⟩
  · have a := h0.1
    have b := h1.1
    simp only [wanted, List.forall_mem_cons, at_none] at a b ⊢
    rw [resolution_over]
    simp only [over, Option.map_or, Option.or_none] at a b ⊢
    obtain ⟨a1, a2, a3, a4, a5, a6, a7, a8, a9, a10, a11, a12, a13, a14, a15, a16, a17, -⟩ := a
    obtain ⟨b1, b2, b3, b4, b5, b6, b7, b8, b9, b10, b11, b12, b13, b14, b15, b16, b17, -⟩ := b
    rw [a1] at b1; rw [a2] at b2; rw [a3] at b3; rw [a4] at b4; rw [a5] at b5; rw [a6] at b6; rw [a7] at b7; rw [a8] at b8; rw [a9] at b9; rw [a10] at b10
    rw [a11] at b11; rw [a12] at b12; rw [a13] at b13; rw [a14] at b14; rw [a15] at b15; rw [a16] at b16; rw [a17] at b17
    exact ⟨b1, b2, b3, b4, b5, b6, b7, b8, b9, b10, b11, b12, b13, b14, b15, b16, b17, nofun⟩
  · obtain ⟨g1, g0⟩ := places q hq
    rw [h1.2 q g1 hc, h0.2 q g0 hc]

theorem pages_over {o s : Options} {po ps : Option Ipp.Value} (ho : PagesGive o po) (hs : PagesGive s ps) : PagesGive (over o s) (po.or ps) := by
  rcases ho with ⟨h1, rfl⟩ | ⟨text, rs, h1, h2, rfl⟩
  · have e : (over o s).pages = s.pages := by simp [over, h1]
    rcases hs with ⟨h3, rfl⟩ | ⟨text, rs, h3, h4, rfl⟩
    · exact .inl ⟨e.trans h3, rfl⟩
    · exact .inr ⟨text, rs, e.trans h3, h4, rfl⟩
  · exact .inr ⟨text, rs, by simp [over, h1], h2, rfl⟩

/-- What a job starts from. -/
theorem started {w : World} {p : Printer} {o s : Options} {j : PrintJob} (hj : createJob p = .ok j) (hsaved : Starts w p o s) :
    ∃ j0 ps, restored w o j = .ok j0 ∧ CollectionsOk Ipp.jobSettings j0.jobAttrs ∧ KMap.Sorted j0.opAttrs ∧ PagesGive s ps ∧ Become (wanted s ps) [] j0.jobAttrs := by
  rcases hsaved with ⟨h, rfl⟩ | ⟨s0, s1, r, later, u, rfl, h2, h3, h4, h5, h6, h7, h8⟩
  · obtain ⟨hr, ha, hb⟩ := C75_start w p o j hj h
    refine ⟨j, none, hr, ?_, by rw [hb]; exact List.Pairwise.nil, .inl ⟨rfl, rfl⟩, ?_⟩
    · rw [ha]; exact ⟨List.Pairwise.nil, fun s hs _ a h => by cases h⟩
    · rw [ha]
      refine ⟨?_, fun _ _ _ => rfl⟩
      intro x hx
      rw [at_none]
      simp only [wanted, List.mem_cons, List.not_mem_nil, or_false] at hx
      rcases hx with rfl | rfl | rfl | rfl | rfl | rfl | rfl | rfl | rfl | rfl | rfl | rfl | rfl | rfl | rfl | rfl | rfl <;> rfl
  · obtain ⟨ps, j0, g1, g2, g3, g4, g5, -⟩ := C77_restored s0 s1 w.store r later u h2 h3 h4 h5 h6 w rfl p h7 o h8 j hj
    exact ⟨j0, ps, g2, g3, g4, g1, g5⟩

/-- The job that `print` makes of the command line, and how it is run. -/
theorem job_run {w : World} {p : Printer} {o s : Options} {inFile t : Bytes}
    (hsaved : Starts w p o s) (hty : TypeIs w o inFile t) {e : End}
    (he : (printCommand w p o inFile).out = .ok e) (hcode : e.code = 0) :
    ∃ env job pages n, PagesGive (over o s) pages ∧ Become (wanted (over o s) pages) [] job.jobAttrs ∧ job.printerAttrs = p.attrs ∧ job.params = {} ∧ Counted w inFile t n ∧
      env.convert = w.env.convert ∧ env.pipelines = w.env.pipelines ∧ (runJob env p job t (fileName inFile) n).out = .ok none ∧
      (printCommand w p o inFile).events = (runJob env p job t (fileName inFile) n).events ∧ prepare w p o inFile = .ok (some (job, t)) := by
  obtain ⟨j, hj⟩ : ∃ j, createJob p = .ok j := by
    obtain ⟨r, hr⟩ : ∃ r, prepare w p o inFile = .ok r := by
      unfold printCommand at he
      cases hp : prepare w p o inFile with
      | ok r => exact ⟨r, rfl⟩
      | throws x => rw [hp] at he; cases he
      | ub => rw [hp] at he; cases he
      | hang => rw [hp] at he; cases he
    unfold prepare at hr
    obtain ⟨j, hj, _⟩ := Outcome.bind_eq_ok.mp hr
    exact ⟨j, hj⟩
  obtain ⟨j0, ps, hr, hc, hs, hps, hb0⟩ := started hj hsaved
  have hn := not_refused hj hr hc hs he hcode
  obtain ⟨job, pages, hp, hpages, hbec, _, hjob⟩ := C75_set w p o inFile t j j0 hj hr hc hs hty hn.1 hn.2
  have e1 : printCommand w p o inFile = launch w p o inFile (some (job, t)) := by
    unfold printCommand
    rw [hp, lift_bind_ok]
  rw [e1] at he ⊢
  obtain ⟨n, store, hcount, _, hrun, _, hev⟩ := launch_fine he hcode
  have hpar : j.params = {} := by
    unfold createJob at hj
    obtain ⟨l, _, hj⟩ := Outcome.bind_eq_ok.mp hj
    cases hj
    rfl
  obtain ⟨a0, b0, h0⟩ := restored_printer hr
  refine ⟨{ w.env with reqId := nextId w p, showJobId := o.printJobId }, job, _, n, pages_over hpages hps, become_over hb0 hbec, ?_, ?_, counted hcount, rfl, rfl, hrun, hev, hp⟩
  · rw [hjob, h0]; exact (job_new hj).1
  · rw [hjob, h0]; exact hpar

theorem copies_asked {p : Printer} {o : Options} {n : Int} {pages : Option Ipp.Value} {job : PrintJob} (hn : CopiesAsked p o n)
    (hb : Become (wanted o pages) [] job.jobAttrs) (hp : job.printerAttrs = p.attrs) : Copies job n := by
  have h := hb.1 (([], ascii "copies"), 0x21, o.copies.map .int) (List.mem_of_getElem? (i := 1) rfl)
  have hat : at_ job.jobAttrs ([], ascii "copies") = KMap.get? job.jobAttrs (ascii "copies") := rfl
  rw [hat] at h
  refine ⟨?_, hn.1⟩
  unfold effective
  rcases hn.2 with ho | ⟨ho, hd⟩
  · rw [ho] at h
    rw [h]
    rfl
  · rw [ho] at h
    have h : KMap.get? job.jobAttrs (ascii "copies") = none := h
    rw [h, hp]
    exact hd

theorem ranges_asked {o : Options} {pages : Option Ipp.Value} {job : PrintJob} (hb : Become (wanted o pages) [] job.jobAttrs) :
    KMap.get? job.jobAttrs (ascii "page-ranges") = pages.map (fun x => (0x33, x)) := by
  have h := hb.1 (([], ascii "page-ranges"), 0x33, pages) (List.mem_of_getElem? (i := 0) rfl)
  have hat : at_ job.jobAttrs ([], ascii "page-ranges") = KMap.get? job.jobAttrs (ascii "page-ranges") := rfl
  rw [hat] at h
  rw [h]
  cases pages <;> rfl

theorem comes_of {p : Printer} {o : Options} {n : Int} {m : Nat} {seq : List Nat} {job j' : PrintJob} (hs : Sequence job j' n m seq) (hp : j'.printerAttrs = p.attrs)
    (hnamed : ∀ m q, m < 2147483647 → (PageAsked o m q → named job m q = 1) ∧ (¬ PageAsked o m q → named job m q = 0)) (hm : m < 2147483647) :
    Comes p o n m j'.jobAttrs seq := by
  obtain ⟨k, h1, h2, h3⟩ := hs.counts
  rw [hp] at h1
  refine ⟨hs.pages, k, h1, fun q hq => ⟨fun ha => ?_, fun ha => ?_⟩⟩
  · rw [h3 q hq, (hnamed m q hm).1 ha]; simp
  · have := h3 q hq
    rw [(hnamed m q hm).2 ha] at this
    have h0 : (seq.count q : Int) = 0 := by
      have this : (seq.count q : Int) * k = 0 := by rw [this]; simp
      rcases Int.mul_eq_zero.1 this with h | h
      · exact h
      · omega
    omega

theorem finalize_printer {pl : Pipelines} {input : Bytes} {pages : Int} {j j' : PrintJob} (h : finalize pl input pages j = .ok (none, j')) : j'.printerAttrs = j.printerAttrs := by
  obtain ⟨r⟩ := finalize_run h
  rw [(after_frame r).printerAttrs, (adjustRaster_frame r.h8).printerAttrs, (before_raster r).printerAttrs]

/-! ## The property -/

/-- **C91, PWG.** When `ippclient print` of a PDF file ends with 0 and the document was sent as PWG raster, then for every printer, command line, document and renderer: the data that was
sent is a PWG raster file of pages of the document, drawn on white paper; with the copies that the printer makes, every page named by `--pages` (every page,
if that is not given) comes out as often as `--copies` says (the printer's default or once, if that is not given), and no other page. Options that are not given are those of the last use
with `--save` for the printer, if there was one. Missing: printers that are files (C76_file_partial); documents of more than 2147483646 pages. -/
theorem C91_pwg_partial (t : Tools) (w : World) (p : Printer) (o : Options) (inFile : Bytes) (hconv : w.env.convert = convert t inFile) (hpl : w.env.pipelines = defaultPipelines)
    {s : Options} (hsaved : Starts w p o s)
    (hty : TypeIs w o inFile (ascii "application/pdf")) (hfile : ¬ IsFile p) (n : Int) (hc : CopiesAsked p (over o s) n)
    (hdraw : ∀ k sc img, ((t.pdf inFile).draw k sc img).length = img.length) (hpages : ∀ m, (t.pdf inFile).pages = some m → m < 2147483647)
    (e : End) (he : (printCommand w p o inFile).out = .ok e) (hcode : e.code = 0) :
    ∃ (job : PrintJob) (pages : Option Ipp.Value) (count : Int) (j' : PrintJob), PagesGive (over o s) pages ∧ Become (wanted (over o s) pages) [] job.jobAttrs ∧ w.pdfPages inFile = some count ∧
      finalize defaultPipelines pdf count job.copy = .ok (none, j') ∧ (j'.targetFormat = pwg → Fits (printParams j') →
      ∃ m seq bmps outs, (t.pdf inFile).pages = some m ∧ Comes p (over o s) n m j'.jobAttrs seq ∧
        All2 (fun q bmp => Bitmap t (printParams j') (Pdf.Spec.picture (t.pdf inFile) j'.paper (printParams j') q) bmp) seq bmps ∧
        readRaster (document (printCommand w p o inFile).events) = .ok (.pwg outs) ∧ All2 ShowsPwg (Pdf.numbered (printParams j') 0 bmps) outs ∧
        Raster.Spec.PwgDocument (Pdf.numbered (printParams j') 0 bmps) (document (printCommand w p o inFile).events)) := by
  obtain ⟨env, job, pages, count, h1, h2, h3, h4, h5, h6, h7, h8, h9, _⟩ := job_run hsaved hty he hcode
  obtain ⟨hr, hnamed⟩ := named_asked h1 (ranges_asked h2)
  obtain ⟨j', g1, g2⟩ := C90_pwg t inFile env (h6.trans hconv) (h7.trans hpl) p hfile job h4 hr n (copies_asked hc h2 h3) (fileName inFile) count hdraw h8
  have hcount : w.pdfPages inFile = some count := by
    rcases h5 with ⟨_, h⟩ | ⟨h, _⟩
    · exact h
    · exact absurd rfl h
  refine ⟨job, pages, count, j', h1, h2, hcount, g1, fun hf hfits => ?_⟩
  obtain ⟨m, seq, bmps, outs, k1, k2, k3, k4, k5, k6⟩ := g2 hf hfits
  rw [h9]
  exact ⟨m, seq, bmps, outs, k1, comes_of k2 ((finalize_printer g1).trans h3) hnamed (hpages m k1), k3, k4, k5, k6⟩

/-- **C91, URF.** Likewise. -/
theorem C91_urf_partial (t : Tools) (w : World) (p : Printer) (o : Options) (inFile : Bytes) (hconv : w.env.convert = convert t inFile) (hpl : w.env.pipelines = defaultPipelines)
    {s : Options} (hsaved : Starts w p o s)
    (hty : TypeIs w o inFile (ascii "application/pdf")) (hfile : ¬ IsFile p) (n : Int) (hc : CopiesAsked p (over o s) n)
    (hdraw : ∀ k sc img, ((t.pdf inFile).draw k sc img).length = img.length) (hpages : ∀ m, (t.pdf inFile).pages = some m → m < 2147483647)
    (e : End) (he : (printCommand w p o inFile).out = .ok e) (hcode : e.code = 0) :
    ∃ (job : PrintJob) (pages : Option Ipp.Value) (count : Int) (j' : PrintJob), PagesGive (over o s) pages ∧ Become (wanted (over o s) pages) [] job.jobAttrs ∧ w.pdfPages inFile = some count ∧
      finalize defaultPipelines pdf count job.copy = .ok (none, j') ∧ (j'.targetFormat = urf → Fits (printParams j') →
      ∃ m seq, (t.pdf inFile).pages = some m ∧ Comes p (over o s) n m j'.jobAttrs seq ∧ (seq.length < 2 ^ 32 → ∃ bmps outs,
        All2 (fun q bmp => Bitmap t (printParams j') (Pdf.Spec.picture (t.pdf inFile) j'.paper (printParams j') q) bmp) seq bmps ∧
        readRaster (document (printCommand w p o inFile).events) = .ok (.urf seq.length outs) ∧ All2 ShowsUrf (Pdf.numbered (printParams j') 0 bmps) outs ∧
        Raster.Spec.UrfDocument seq.length (Pdf.numbered (printParams j') 0 bmps) (document (printCommand w p o inFile).events))) := by
  obtain ⟨env, job, pages, count, h1, h2, h3, h4, h5, h6, h7, h8, h9, _⟩ := job_run hsaved hty he hcode
  obtain ⟨hr, hnamed⟩ := named_asked h1 (ranges_asked h2)
  obtain ⟨j', g1, g2⟩ := C90_urf t inFile env (h6.trans hconv) (h7.trans hpl) p hfile job h4 hr n (copies_asked hc h2 h3) (fileName inFile) count hdraw h8
  have hcount : w.pdfPages inFile = some count := by
    rcases h5 with ⟨_, h⟩ | ⟨h, _⟩
    · exact h
    · exact absurd rfl h
  refine ⟨job, pages, count, j', h1, h2, hcount, g1, fun hf hfits => ?_⟩
  obtain ⟨m, seq, k1, k2, k3⟩ := g2 hf hfits
  rw [h9]
  exact ⟨m, seq, k1, comes_of k2 ((finalize_printer g1).trans h3) hnamed (hpages m k1), k3⟩

/-- **C91, PDF and PostScript.** The data that was sent is what the library writes for the pages that are named by `--pages`, drawn in their order, once each; the request has the number of
copies as it was asked for, or none. -/
theorem C91_vector_partial (t : Tools) (w : World) (p : Printer) (o : Options) (inFile : Bytes) (hconv : w.env.convert = convert t inFile) (hpl : w.env.pipelines = defaultPipelines)
    {s : Options} (hsaved : Starts w p o s)
    (hty : TypeIs w o inFile (ascii "application/pdf")) (hfile : ¬ IsFile p) (n : Int) (hc : CopiesAsked p (over o s) n)
    (hpages : ∀ m, (t.pdf inFile).pages = some m → m < 2147483647) (e : End) (he : (printCommand w p o inFile).out = .ok e) (hcode : e.code = 0) :
    ∃ (job : PrintJob) (pages : Option Ipp.Value) (count : Int) (j' : PrintJob), PagesGive (over o s) pages ∧ Become (wanted (over o s) pages) [] job.jobAttrs ∧ w.pdfPages inFile = some count ∧
      finalize defaultPipelines pdf count job.copy = .ok (none, j') ∧ (j'.targetFormat = pdf ∨ j'.targetFormat = postscript →
      ∃ (m : Nat) (seq : List Nat), (t.pdf inFile).pages = some m ∧ seq.Nodup ∧ (∀ q, q ∈ seq ↔ PageAsked (over o s) m q) ∧
        KMap.get? j'.jobAttrs (ascii "copies") = (over o s).copies.map (fun c => (0x21, .int c)) ∧
        document (printCommand w p o inFile).events = Spec.surfaceBytes (t.pdf inFile) [] (seq.map (Pdf.Spec.drawing (t.pdf inFile) j'.paper (printParams j')))) := by
  obtain ⟨env, job, pages, count, h1, h2, h3, h4, h5, h6, h7, h8, h9, _⟩ := job_run hsaved hty he hcode
  obtain ⟨hr, hnamed⟩ := named_asked h1 (ranges_asked h2)
  obtain ⟨j', g1, g2⟩ := C90_vector t inFile env (h6.trans hconv) (h7.trans hpl) p hfile job h4 hr n (copies_asked hc h2 h3) (fileName inFile) count h8
  have hcount : w.pdfPages inFile = some count := by
    rcases h5 with ⟨_, h⟩ | ⟨h, _⟩
    · exact h
    · exact absurd rfl h
  refine ⟨job, pages, count, j', h1, h2, hcount, g1, fun hf => ?_⟩
  obtain ⟨m, seq, k1, k2, k3, k4, k5⟩ := g2 hf
  rw [h9]
  have hm := hpages m k1
  refine ⟨m, seq, k1, List.nodup_iff_count.2 (fun q => ?_), fun q => ?_, ?_, k5⟩
  · rw [k3 q]
    by_cases ha : PageAsked (over o s) m q
    · rw [(hnamed m q hm).1 ha]
    · rw [(hnamed m q hm).2 ha]; omega
  · rw [← List.count_pos_iff, k3 q]
    by_cases ha : PageAsked (over o s) m q
    · rw [(hnamed m q hm).1 ha]; simp [ha]
    · rw [(hnamed m q hm).2 ha]; simp [ha]
  · have h := h2.1 (([], ascii "copies"), 0x21, (over o s).copies.map .int) (List.mem_of_getElem? (i := 1) rfl)
    have hat : at_ job.jobAttrs ([], ascii "copies") = KMap.get? job.jobAttrs (ascii "copies") := rfl
    rw [hat] at h
    rw [k4, h]
    cases (over o s).copies <;> rfl

/-- **C91, other files.** When `ippclient print` of a file that is neither PDF, JPEG nor plain text ends with 0, the contents of the file were sent, byte for byte. -/
theorem C91_upload_partial (t : Tools) (w : World) (p : Printer) (o : Options) (inFile input : Bytes) (hconv : w.env.convert = convert t inFile) (hpl : w.env.pipelines = defaultPipelines)
    {s : Options} (hsaved : Starts w p o s)
    (hty : TypeIs w o inFile input) (hi : input ≠ ascii "application/pdf" ∧ input ≠ ascii "image/jpeg" ∧ input ≠ ascii "text/plain") (hfile : ¬ IsFile p)
    (e : End) (he : (printCommand w p o inFile).out = .ok e) (hcode : e.code = 0) : t.read inFile = some (document (printCommand w p o inFile).events) := by
  obtain ⟨env, job, pages, count, h1, h2, h3, h4, h5, h6, h7, h8, h9, _⟩ := job_run hsaved hty he hcode
  rw [h9]
  exact C90_upload t inFile env (h6.trans hconv) (h7.trans hpl) p hfile job input (fileName inFile) count hi h8

/-- C91 in full, for plain text: every line end comes out as CR LF. Not so when it is CR LF already (C19). -/
def C91_text_full : Prop :=
  ∀ (t : Tools) (w : World) (p : Printer) (o s : Options) (inFile first : Bytes) (rest : List (Text.LineEnd × Bytes)) (e : End), w.env.convert = convert t inFile →
    w.env.pipelines = defaultPipelines → Typed p → Starts w p o s → TypeIs w o inFile (ascii "text/plain") → ¬ IsFile p → Text.Lines first rest →
    t.read inFile = some (Text.textOf first rest) → (printCommand w p o inFile).out = .ok e → e.code = 0 →
    document (printCommand w p o inFile).events = Text.wantedText first rest

/-- **C91, plain text.** When `ippclient print` of a text ends with 0, the text was sent with CR LF for every line end; but those that are CR LF already come out twice,
which is what is missing. -/
theorem C91_text_partial (t : Tools) (w : World) (p : Printer) (o : Options) (inFile : Bytes) (hconv : w.env.convert = convert t inFile) (hpl : w.env.pipelines = defaultPipelines)
    {s : Options} (hsaved : Starts w p o s) (hty : TypeIs w o inFile (ascii "text/plain")) (hfile : ¬ IsFile p)
    (first : Bytes) (rest : List (Text.LineEnd × Bytes)) (hl : Text.Lines first rest) (hread : t.read inFile = some (Text.textOf first rest))
    (e : End) (he : (printCommand w p o inFile).out = .ok e) (hcode : e.code = 0) :
    document (printCommand w p o inFile).events = Text.producedText first rest := by
  obtain ⟨env, job, pages, count, h1, h2, h3, h4, h5, h6, h7, h8, h9, _⟩ := job_run hsaved hty he hcode
  rw [h9]
  exact C90_text_partial t inFile env (h6.trans hconv) (h7.trans hpl) p hfile job (fileName inFile) count first rest hl hread h8

/-- **C91, JPEG.** When `ippclient print` of a JPEG file ends with 0, a JPEG file with the same picture was sent. Missing: the colors (C80). -/
theorem C91_jpeg_partial (t : Tools) (hl : Jpeg.Spec.Sound t.jpeg) (hb : t.buffer ≠ []) (w : World) (p : Printer) (o : Options) (inFile : Bytes)
    (hconv : w.env.convert = convert t inFile) (hpl : w.env.pipelines = defaultPipelines)
    {s : Options} (hsaved : Starts w p o s) (hty : TypeIs w o inFile (ascii "image/jpeg")) (hfile : ¬ IsFile p)
    (file : Bytes) (pic : Jpeg.Picture) (hread : t.read inFile = some file) (hpic : Jpeg.Spec.Reads t.jpeg file pic)
    (e : End) (he : (printCommand w p o inFile).out = .ok e) (hcode : e.code = 0) :
    ∃ pic', Jpeg.Spec.Reads t.jpeg (document (printCommand w p o inFile).events) pic' ∧ pic'.critical = pic.critical ∧ pic'.ids = pic.ids ∧ pic'.coefs = pic.coefs ∧
      pic'.markers.Sublist pic.markers := by
  obtain ⟨env, job, pages, count, h1, h2, h3, h4, h5, h6, h7, h8, h9, _⟩ := job_run hsaved hty he hcode
  rw [h9]
  exact C90_jpeg_partial t hl hb inFile env (h6.trans hconv) (h7.trans hpl) p hfile job (fileName inFile) count file pic hread hpic h8

/-- Asking a printer for its attributes sends no document. -/
theorem refresh_no_document {files : Printer.Files} {reqId : Nat} {p : Printer} {reply : Except Bytes Bytes} {r : Option Bytes × Printer}
    (h : (refresh files reqId p reply).out = .ok r) : document (refresh files reqId p reply).events = [] := by
  unfold refresh at h ⊢
  split
  · rfl
  · rename_i hs
    simp only [hs] at h
    obtain ⟨m, h1, h2, h3⟩ := bind_steps h
    rw [h3]
    obtain ⟨r', h4, h5, h6⟩ := bind_steps h2
    rw [h6]
    obtain ⟨a, h7, h8, h9⟩ := bind_steps h5
    rw [h9]
    have hd : document (doRequest reqId m reply).events = [] := by
      unfold doRequest at h4 ⊢
      obtain ⟨b, k1, k2, k3⟩ := bind_steps h4
      rw [k3]
      obtain ⟨u, k4, k5, k6⟩ := bind_steps k2
      rw [k6]
      rfl
    simp only [document, List.flatMap_append] at hd ⊢
    rw [hd]
    rfl

/-- **C91, from the command line.** When `ippclient print` ends with 0, for any command line that consists of uses of its options, an address and a file, then the printer answered for
itself, and what is sent is what the other theorems of C91 say, for this printer and the options that the command line gives (C73). -/
theorem C91_main (w : World) (args : List Bytes) (uses : List Use) (addr file : Bytes) (ha : Accounts printOpts [addrArg, pdfArg] args uses [addr, file])
    (hh : lastUse uses [ascii "-h", ascii "--help"] = none) (e : End) (he : (main w (ascii "print" :: args)).out = .ok e) (hcode : e.code = 0) :
    ∃ o p, Matches uses o ∧ (construct w.files w.env.reqId addr w.user w.attrsReply).out = .ok (none, p) ∧ (printCommand w p o file).out = .ok e ∧
      document (main w (ascii "print" :: args)).events = document (printCommand w p o file).events := by
  obtain ⟨o, h1, h2⟩ := C73_print w args uses addr file ha hh
  rw [h2] at he ⊢
  unfold afterAttrs at he ⊢
  obtain ⟨⟨err, p⟩, h3, h4, h5⟩ := bind_steps he
  cases err with
  | some x =>
    have h4 : (Outcome.ok ({ code := 1, store := w.store } : End)) = .ok e := h4
    cases h4
    cases hcode
  | none =>
    refine ⟨o, p, h1, h3, h4, ?_⟩
    rw [h5]
    have hd := refresh_no_document h3
    unfold construct
    simp only [document, List.flatMap_append] at hd ⊢
    rw [hd]
    rfl

/-! ## Cases that meet the hypotheses -/

/-- a printer that takes these formats, and very small paper -/
def exClientPrinter (formats : List Bytes) : Printer :=
  { addr := ascii "ipp://x/ipp/print",
    attrs := [(ascii "document-format-supported", (0x49, .set (formats.map .str))), (ascii "media-supported", (0x44, .set [.str (ascii "na_dot_0.01x0.01in")]))] }

/-- `--pages 2-3 --copies 2 --paper-size na_dot_0.01x0.01in` -/
def exOptions : Options := { pages := some (ascii "2-3"), copies := some 2, paperSize := some (ascii "na_dot_0.01x0.01in") }

/-- a PDF file and a PNG file -/
def exWorld (inFile : Bytes) : World :=
  { Client.world with
    env := exEnv inFile,
    files := { read := fun f => if f = ascii "a.pdf" then some (ascii "%PDF-1.7") else if f = ascii "/tmp/a.png" then some [0x89, 80, 78, 71] else none,
               overrides := none, parse := fun _ => .error [] } }

theorem exClient_typed (f : Bytes) : Typed (exClientPrinter [f]) := by
  have hf : ∀ n, KMap.get? (exClientPrinter [f]).attrs n =
      if n = ascii "document-format-supported" then some (0x49, .set [.str f]) else if n = ascii "media-supported" then some (0x44, .set [.str (ascii "na_dot_0.01x0.01in")]) else none := by
    intro n
    show KMap.get? [_, _] n = _
    simp only [KMap.get?, List.map_cons, List.map_nil]
  have hall : ∀ n v, Supported (exClientPrinter [f]) n v → (∃ b, v = .str b) ∧ (n ++ ascii "-supported" = ascii "document-format-supported" ∨ n ++ ascii "-supported" = ascii "media-supported") := by
    intro n v hv
    unfold Supported at hv
    rw [hf] at hv
    split at hv
    · rw [Ipp.declares_asList] at hv
      have hv : v ∈ [Ipp.Value.str f] := hv
      simp only [List.mem_cons, List.not_mem_nil, or_false] at hv
      exact ⟨⟨f, hv⟩, .inl ‹_›⟩
    · split at hv
      · rw [Ipp.declares_asList] at hv
        have hv : v ∈ [Ipp.Value.str (ascii "na_dot_0.01x0.01in")] := hv
        simp only [List.mem_cons, List.not_mem_nil, or_false] at hv
        exact ⟨⟨_, hv⟩, .inr ‹_›⟩
      · cases hv
  have hno : ∀ n ∈ [ascii "print-quality", ascii "finishings", ascii "media-top-margin", ascii "media-bottom-margin", ascii "media-left-margin", ascii "media-right-margin",
      ascii "printer-resolution"], ¬ (n ++ ascii "-supported" = ascii "document-format-supported" ∨ n ++ ascii "-supported" = ascii "media-supported") := by decide +kernel
  refine { texts := fun n _ v hv => ?_, ints := fun n hn v hv => ?_, resolutions := fun v hv => ?_, copies := fun a ha => ?_, qualities := fun v hv => ?_ }
  · obtain ⟨⟨b, rfl⟩, _⟩ := hall n v hv; rfl
  · exact absurd (hall n v hv).2 (hno n (by
      simp only [List.mem_cons, List.not_mem_nil, or_false] at hn ⊢
      rcases hn with h | h | h | h | h | h <;> simp [h]))
  · exact absurd (hall _ v hv).2 (hno _ (by simp))
  · rw [hf, if_neg (by decide +kernel), if_neg (by decide +kernel)] at ha; cases ha
  · exact absurd (hall _ v hv).2 (hno _ (by simp))

theorem exPages : DenotesRanges (ascii "2-3") [(2, 3)] :=
  ⟨[ascii "2" ++ 45 :: ascii "3"], by simp, .cons (.fromTo ⟨⟨by decide +kernel, by decide +kernel⟩, by decide +kernel, by decide +kernel⟩
    ⟨⟨by decide +kernel, by decide +kernel⟩, by decide +kernel, by decide +kernel⟩ (by decide)) .nil, ⟨by simp, by simp⟩, by decide +kernel⟩

theorem exNumbers : NumbersFit (ascii "2-3") := by
  intro ds hds _
  obtain ⟨a, b, h⟩ := hds
  have hlen : ds.length ≤ 3 := by
    have := congrArg List.length h
    have h3 : (ascii "2-3").length = 3 := by decide +kernel
    simp only [List.length_append] at this
    omega
  have hmem : ∀ c ∈ ds, c ∈ ascii "2-3" := fun c hc => by rw [← h]; simp [hc]
  have all : ∀ x ∈ ascii "2-3", ∀ y ∈ ascii "2-3", ∀ z ∈ ascii "2-3", digitsVal [] ≤ sizeMax ∧ digitsVal [x] ≤ sizeMax ∧ digitsVal [x, y] ≤ sizeMax ∧ digitsVal [x, y, z] ≤ sizeMax := by
    decide +kernel
  match ds, hlen, hmem with
  | [], _, _ => exact (all 50 (by decide +kernel) 50 (by decide +kernel) 50 (by decide +kernel)).1
  | [x], _, hm => exact (all x (hm x (by simp)) x (hm x (by simp)) x (hm x (by simp))).2.1
  | [x, y], _, hm => exact (all x (hm x (by simp)) y (hm y (by simp)) y (hm y (by simp))).2.2.1
  | [x, y, z], _, hm => exact (all x (hm x (by simp)) y (hm y (by simp)) z (hm z (by simp))).2.2.2

theorem exNotRefused {f : Bytes} (hf : f = pwg ∨ f = urf) : ¬ Refused (exClientPrinter [f]) exOptions := by
  intro h
  cases h with
  | pages text h1 h2 => cases h1; exact h2 _ exPages
  | oneResolution h => exact h rfl
  | copies n h1 h2 h3 =>
    apply h3
    unfold TakesRaster Supported
    have e : KMap.get? (exClientPrinter [f]).attrs (ascii "document-format" ++ ascii "-supported") = some (0x49, .set [.str f]) := by
      show KMap.get? [_, _] _ = _
      rw [KMap.get?, if_pos (by decide +kernel)]
      rfl
    rw [e, Ipp.declares_asList, Ipp.declares_asList]
    rcases hf with rfl | rfl
    · left; exact List.mem_cons_self
    · right; exact List.mem_cons_self
  | value name v h1 h2 =>
    have e : (name, some v) ∈ [(ascii "media", some (Ipp.Value.str (ascii "na_dot_0.01x0.01in")))] := by
      unfold checked exOptions at h1
      simpa using h1
    simp only [List.mem_cons, Prod.mk.injEq, Option.some.injEq, List.not_mem_nil, or_false] at e
    obtain ⟨rfl, rfl⟩ := e
    apply h2
    unfold Supported
    have e : KMap.get? (exClientPrinter [f]).attrs (ascii "media" ++ ascii "-supported") = some (0x44, .set [.str (ascii "na_dot_0.01x0.01in")]) := by
      show KMap.get? [_, _] _ = _
      rw [KMap.get?, if_neg (by decide +kernel), KMap.get?, if_pos (by decide +kernel)]
    rw [e, Ipp.declares_asList]
    exact List.mem_cons_self

/-- `print` ends with 0 and has sent this many bytes. -/
def exSent (f : Bytes) : Bool × Nat :=
  let r := printCommand (exWorld (ascii "a.pdf")) (exClientPrinter [f]) exOptions (ascii "a.pdf")
  (match r.out with
    | .ok e => decide (e.code = 0)
    | _ => false, (document r.events).length)

/-- Pages 2 and 3 are sent twice as PWG raster, four pages in all; the printer makes one copy. -/
example : (exWorld (ascii "a.pdf")).env.convert = convert exTools (ascii "a.pdf") ∧ (exWorld (ascii "a.pdf")).env.pipelines = defaultPipelines ∧
    (∀ text, exOptions.pages = some text → NumbersFit text) ∧ (∃ j, createJob (exClientPrinter [pwg]) = .ok j) ∧ Starts (exWorld (ascii "a.pdf")) (exClientPrinter [pwg]) exOptions {} ∧
    TypeIs (exWorld (ascii "a.pdf")) exOptions (ascii "a.pdf") (ascii "application/pdf") ∧ ¬ Refused (exClientPrinter [pwg]) exOptions ∧ ¬ IsFile (exClientPrinter [pwg]) ∧
    CopiesAsked (exClientPrinter [pwg]) exOptions 2 ∧ PageAsked exOptions 3 2 ∧ ¬ PageAsked exOptions 3 1 ∧ exSent pwg = (true, 4 + 4 * 1799) := by
  refine ⟨rfl, rfl, fun text h => ?_, ⟨_, rfl⟩, .inl ⟨.inr (.inl (by decide +kernel)), rfl⟩, ?_, exNotRefused (.inl rfl), ?_, ⟨by decide, .inl rfl⟩, ?_, ?_, by decide +kernel⟩
  · cases h; exact exNumbers
  · exact .inr ⟨rfl, by decide +kernel, ascii "%PDF-1.7", .pdf, by decide +kernel, ⟨[37, 80, 68, 70], by decide +kernel, by decide +kernel⟩, rfl⟩
  · unfold IsFile
    show ¬ ascii "file://" <+: ascii "ipp://x/ipp/print"
    decide +kernel
  · exact ⟨by decide, by decide, .inr ⟨_, _, rfl, exPages, (2, 3), by simp, by decide, by decide⟩⟩
  · rintro ⟨_, _, h | ⟨text, rs, h1, h2, r, hr, h3, _⟩⟩
    · cases h
    · cases h1
      rw [denotes_unique h2 exPages] at hr
      simp only [List.mem_cons, List.not_mem_nil, or_false] at hr
      subst hr
      exact absurd h3 (by decide)

/-- As URF, they are sent twice too. -/
example : (exSent urf).1 = true ∧ ¬ Refused (exClientPrinter [urf]) exOptions := ⟨by decide +kernel, exNotRefused (.inr rfl)⟩

/-- `print -q normal` after `print --save -q high --media-type stationery -p 2-5` starts from the latter's options. -/
example : ∃ w : World, Starts w uuidPrinter laterRun.o savingRun.o ∧ (over laterRun.o savingRun.o).pages = some (ascii "2-5") ∧ (over laterRun.o savingRun.o).quality = some 4 := by
  obtain ⟨s1, s2, h1, h2, _⟩ := savingRun_ends
  refine ⟨{ Client.world with store := s2 }, .inr ⟨fun _ => none, s1, savingRun, [laterRun], ascii "urn:uuid:1", rfl, ⟨0x45, by decide +kernel⟩, rfl, h1, h2, ?_,
    ⟨0x45, by decide +kernel⟩, rfl⟩, rfl, rfl⟩
  intro x hx
  rw [List.mem_singleton.mp hx]
  exact .inl rfl

/-- a world whose printer reports that it takes PWG raster on very small paper -/
def exMainWorld : World :=
  { exWorld (ascii "a.pdf") with
    attrsReply := .ok (response 1 1 0 1 [(4, [(ascii "document-format-supported", (0x49, .set [.str pwg])), (ascii "media-supported", (0x44, .set [.str (ascii "na_dot_0.01x0.01in")]))])]) }

/-- `--copies 2` -/
def exCopiesUse : Use := { option := 5, words := [ascii "--copies", ascii "2"], value := .num 2 }

/-- `--paper-size na_dot_0.01x0.01in` -/
def exMediaUse : Use := { option := 7, words := [ascii "--paper-size", ascii "na_dot_0.01x0.01in"], value := .text (ascii "na_dot_0.01x0.01in") }

/-- `--copies 2 --paper-size na_dot_0.01x0.01in ipp://x/ipp/print a.pdf` -/
def exArgs : List Bytes := [ascii "--copies", ascii "2", ascii "--paper-size", ascii "na_dot_0.01x0.01in", ascii "ipp://x/ipp/print", ascii "a.pdf"]

theorem exAccounts : Accounts printOpts [addrArg, pdfArg] exArgs [exCopiesUse, exMediaUse] [ascii "ipp://x/ipp/print", ascii "a.pdf"] := by
  refine ⟨by decide +kernel, ?_, ?_, ?_, by decide +kernel⟩
  · intro u hu
    simp only [List.mem_cons, List.not_mem_nil, or_false] at hu
    rcases hu with rfl | rfl
    · exact isUse_of (name := ascii "--copies") (w := ascii "2") rfl rfl rfl rfl (by decide +kernel)
    · exact isUse_of (name := ascii "--paper-size") (w := ascii "na_dot_0.01x0.01in") rfl rfl rfl rfl (by decide +kernel)
  · intro a ha
    cases ha
    have : ∀ o ∈ printOpts.map (·.names), ascii "ipp://x/ipp/print" ∉ o := by decide +kernel
    intro o ho
    exact this o.names (List.mem_map_of_mem ho)
  · intro i p hp hi
    match i, hp, hi with
    | 0, _, hi => simp at hi
    | 1, _, hi => simp at hi
    | i + 2, hp, _ => simp at hp

/-- `ippclient print` with this command line ends with 0 and has sent three pages twice. -/
example : lastUse [exCopiesUse, exMediaUse] [ascii "-h", ascii "--help"] = none ∧ (match (main exMainWorld (ascii "print" :: exArgs)).out with
    | .ok e => decide (e.code = 0)
    | _ => false) = true ∧ (document (main exMainWorld (ascii "print" :: exArgs)).events).length = 4 + 6 * 1799 := by
  decide +kernel

/-- **C91, plain text, where it fails.** -/
theorem C91_text_false : ¬ C91_text_full := by
  intro h
  have hk : (match (printCommand (exWorld (ascii "/tmp/a.txt")) (exClientPrinter [ascii "text/plain"]) { mimeType := some (ascii "text/plain") } (ascii "/tmp/a.txt")).out with
      | .ok e => decide (e.code = 0)
      | _ => false) = true := by decide +kernel
  split at hk
  case h_2 => cases hk
  rename_i e he
  have := h exTools (exWorld (ascii "/tmp/a.txt")) (exClientPrinter [ascii "text/plain"]) { mimeType := some (ascii "text/plain") } {} (ascii "/tmp/a.txt")
    (ascii "a") [(.crlf, ascii "b")] e rfl rfl (exClient_typed _) (.inl ⟨.inr (.inl (by decide +kernel)), rfl⟩) (.inl rfl)
    (by unfold IsFile; show ¬ ascii "file://" <+: ascii "ipp://x/ipp/print"; decide +kernel)
    ⟨by decide +kernel, by show (10 : UInt8) ∉ ascii "b"; decide +kernel⟩ (by decide +kernel) he (of_decide_eq_true hk)
  revert this
  decide +kernel

/-- A JPEG file is sent. -/
example : Jpeg.Spec.Sound exTools.jpeg ∧ exTools.buffer ≠ [] ∧ exTools.read (ascii "/tmp/a.jpg") = some [255, 216, 1, 217] ∧
    Jpeg.Spec.Reads exTools.jpeg [255, 216, 1, 217] ⟨[1], [1, 2, 3, 4], [9, 8], []⟩ ∧
    (match (printCommand (exWorld (ascii "/tmp/a.jpg")) (exClientPrinter [jpeg]) { mimeType := some (ascii "image/jpeg") } (ascii "/tmp/a.jpg")).out with
      | .ok e => decide (e.code = 0)
      | _ => false) = true :=
  ⟨Jpeg.toy_sound, by decide, by decide +kernel, rfl, by decide +kernel⟩

end Verif.Deliver
