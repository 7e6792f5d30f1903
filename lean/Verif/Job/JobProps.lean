import Verif.Job.Lemmas
import Verif.Job.ConvertProps
import Verif.Params.Props

/-!
# Properties of print jobs: C30, C31, C32, C34, C35, C36
-/

namespace Verif.Job

open Ipp

/-! ## Specification -/

namespace Spec

/-- What a setting comes to: the attribute of the job if it is there, else the printer's default, else nothing. -/
def effective (name : Bytes) (pa a : Attrs) : Option Value :=
  match KMap.get? a name with
  | some x => some x.2
  | none => (KMap.get? pa (name ++ ascii "-default")).map Prod.snd

/-- The printer makes copies of raster documents: it says so with a range that allows more than one copy, and does not say that this
varies with the document format. -/
def MakesCopies (pa : Attrs) : Prop :=
  (∃ tag l h, KMap.get? pa (ascii "copies-supported") = some (tag, .range l h) ∧ h > 1) ∧
  ¬ Ipp.Spec.Declares (KMap.get? pa (ascii "document-format-varying-attributes")) (.str (ascii "copies")) ∧
  ¬ Ipp.Spec.Declares (KMap.get? pa (ascii "document-format-varying-attributes")) (.str (ascii "copies-supported"))

/-- How many copies of what it receives the printer makes, for a job with the attributes `a`: as many as it is told; if it is told
nothing its default, if it makes copies at all. -/
def PrinterMakes (pa a : Attrs) (k : Int) : Prop :=
  match KMap.get? a (ascii "copies") with
  | some x => x.2 = .int k
  | none => (MakesCopies pa ∧ ((KMap.get? pa (ascii "copies-default")).map Prod.snd).getD (.int 1) = .int k) ∨
      (¬ MakesCopies pa ∧ k = 1)

/-- The values of an attribute. -/
def values : Option Attr → List Value
  | none => []
  | some (_, .set l) => l
  | some (_, v) => [v]

/-- The keyword for a back side transformation in pwg-raster-document-sheet-back. -/
def pwgKeyword : BackXform → Bytes
  | .Normal => ascii "normal"
  | .Flipped => ascii "flipped"
  | .Rotated => ascii "rotated"
  | .ManualTumble => ascii "manual-tumble"

/-- The keyword for a back side transformation in urf-supported. -/
def urfKeyword : BackXform → Bytes
  | .Normal => ascii "DM1"
  | .Flipped => ascii "DM2"
  | .Rotated => ascii "DM3"
  | .ManualTumble => ascii "DM4"

end Spec

open Spec

theorem getAs_bind_str {t : Ty} {v : Value} {b : Bytes} (h : (getAs t v >>= fun v => pure (strOf v)) = .ok b) (ht : t = .str) :
    v = .str b := by
  rw [Outcome.bind_eq_ok] at h
  obtain ⟨x, hx, h⟩ := h
  obtain ⟨rfl, hty⟩ := getAs_ok hx
  cases h
  exact strOf_ty (by rw [hty, ht])

/-- A string setting reads what it comes to. -/
theorem getStr_effective {s : Setting} (hs : s.subKey = []) (ht : s.ty = .str) {pa a : Attrs} {fb b : Bytes}
    (h : getStr s pa a fb = .ok b) : (effective s.name pa a).getD (.str fb) = .str b := by
  unfold getStr at h
  rw [get_top hs] at h
  unfold effective
  cases hg : KMap.get? a s.name with
  | some x => rw [hg] at h; exact getAs_bind_str h ht
  | none =>
    rw [hg] at h
    simp only [Attrs.get] at h
    cases hd : KMap.get? pa (s.name ++ ascii "-default") with
    | some x => rw [hd] at h; exact getAs_bind_str h ht
    | none => rw [hd] at h; cases h; rfl

theorem getAs_bind_int {t : Ty} {v : Value} {b : Int} (h : (getAs t v >>= fun v => pure (intOf v)) = .ok b) (ht : t = .int) :
    v = .int b := by
  rw [Outcome.bind_eq_ok] at h
  obtain ⟨x, hx, h⟩ := h
  obtain ⟨rfl, hty⟩ := getAs_ok hx
  cases h
  exact intOf_ty (by rw [hty, ht])

/-- An integer setting reads what it comes to. -/
theorem getInt_effective {s : Setting} (hs : s.subKey = []) (ht : s.ty = .int) {pa a : Attrs} {fb b : Int}
    (h : getInt s pa a fb = .ok b) : (effective s.name pa a).getD (.int fb) = .int b := by
  unfold getInt at h
  rw [get_top hs] at h
  unfold effective
  cases hg : KMap.get? a s.name with
  | some x => rw [hg] at h; exact getAs_bind_int h ht
  | none =>
    rw [hg] at h
    simp only [Attrs.get] at h
    cases hd : KMap.get? pa (s.name ++ ascii "-default") with
    | some x => rw [hd] at h; exact getAs_bind_int h ht
    | none => rw [hd] at h; cases h; rfl

theorem effective_congr {name : Bytes} {pa a a' : Attrs} (h : KMap.get? a' name = KMap.get? a name) :
    effective name pa a' = effective name pa a := by unfold effective; rw [h]

theorem supportsCopies_iff {pa : Attrs} {b : Bool} (h : supportsCopies pa = .ok b) : b = true ↔ MakesCopies pa := by
  unfold supportsCopies at h
  rw [Outcome.bind_eq_ok] at h; obtain ⟨r, hr, h⟩ := h
  rw [Outcome.bind_eq_ok] at h; obtain ⟨l, hl, h⟩ := h
  cases h
  have hm := mem_strList hl
  unfold MakesCopies
  rw [← hm, ← hm]
  have h1 : ((Setting.bounds r).2 > 1) ↔ ∃ tag l h, KMap.get? pa (ascii "copies-supported") = some (tag, .range l h) ∧ h > 1 := by
    unfold Attrs.get at hr
    cases hg : KMap.get? pa (ascii "copies-supported") with
    | none => rw [hg] at hr; cases hr; simp [Setting.bounds]
    | some x =>
      rw [hg] at hr
      obtain ⟨rfl, hty⟩ := getAs_ok hr
      obtain ⟨tag, v⟩ := x
      cases v <;> simp [Value.ty] at hty
      constructor
      · intro hx; exact ⟨_, _, _, rfl, hx⟩
      · rintro ⟨_, _, _, he, hx⟩; cases he; exact hx
  rw [← h1]
  simp

/-! ## C30 -/

/-- C30: after a successful `finalize` the document-format attribute is there, and is the target format, which the printer
lists as supported, or else, when the target format is not listed, octet-stream. -/
theorem C30_document_format (pl : Pipelines) (input : Bytes) (pages : Int) (j j' : PrintJob)
    (h : finalize pl input pages j = .ok (none, j')) :
    ∃ f, KMap.get? j'.opAttrs (ascii "document-format") = some (0x49, .str f) ∧
      ((f = j'.targetFormat ∧ Ipp.Spec.Declares (KMap.get? j.printerAttrs (ascii "document-format-supported")) (.str f)) ∨
       (f = octetStream ∧
        ¬ Ipp.Spec.Declares (KMap.get? j.printerAttrs (ascii "document-format-supported")) (.str j'.targetFormat))) := by
  obtain ⟨r⟩ := finalize_run h
  have hb := before_raster r
  have hf := adjustRaster_frame r.h8
  have ha := after_frame r
  have ht : j'.targetFormat = r.target := by rw [ha.targetFormat, hf.targetFormat, hb.targetFormat]
  have hop : j'.opAttrs = r.j2.opAttrs := by rw [ha.opAttrs, hf.opAttrs, hb.opAttrs]
  obtain ⟨f, e1, hf1⟩ := setDocumentFormat_ok r.h1
  obtain ⟨op, e2, hc⟩ := setCompression_ok r.h2
  have h1 : KMap.get? r.j1.opAttrs (ascii "document-format") = some (0x49, .str f) := by
    rw [e1]; exact (KMap.get?_assign_any _ _ _ _).trans (if_pos rfl)
  have h2 : KMap.get? r.j2.opAttrs (ascii "document-format") = some (0x49, .str f) := by
    rw [e2, ← h1]
    show KMap.get? op _ = _
    rcases hc with ⟨_, rfl⟩ | ⟨_, l, _, ⟨_, rfl⟩ | ⟨_, _, rfl⟩ | ⟨_, _, rfl⟩⟩
    · rfl
    · exact sameBut_assign _ _ _ _ (by decide)
    · exact sameBut_assign _ _ _ _ (by decide)
    · rfl
  refine ⟨f, by rw [hop]; exact h2, ?_⟩
  rw [ht]
  exact hf1

/-- C30, the target format itself: unless the user chose a format of their own, there is a conversion from the input format to it. -/
theorem C30_target_convertible (pl : Pipelines) (input : Bytes) (pages : Int) (j j' : PrintJob)
    (h : finalize pl input pages j = .ok (none, j'))
    (hu : ∀ x, KMap.get? j.opAttrs (ascii "document-format") = some x → x.2 = .str octetStream) :
    Convertible pl input j'.targetFormat := by
  obtain ⟨r⟩ := finalize_run h
  have hb := before_raster r
  have hf := adjustRaster_frame r.h8
  have ha := after_frame r
  have ht : j'.targetFormat = r.target := by rw [ha.targetFormat, hf.targetFormat, hb.targetFormat]
  have hne : r.target ≠ octetStream := by
    obtain ⟨f, e1, _⟩ := setDocumentFormat_ok r.h1
    have := r.hne.2
    rw [e1] at this; exact this
  rw [ht, ← C29_convert_fun]
  have h0 := r.h0
  generalize r.target = t at *
  unfold determineTargetFormat at h0
  rw [Outcome.bind_eq_ok] at h0; obtain ⟨d, hd, h0⟩ := h0
  rw [Outcome.bind_eq_ok] at h0; obtain ⟨b, hb', h0⟩ := h0
  rw [isSet_top rfl] at hb'
  have hset : b = true → d = octetStream := by
    rintro rfl
    have hd := getStr_effective rfl rfl hd
    unfold effective at hd
    cases hg : KMap.get? j.opAttrs sDocumentFormat.name with
    | none => rw [hg] at hb'; cases hb'
    | some x =>
      rw [hg] at hd
      have := hu x hg
      simp only [this, Option.getD_some, Value.str.injEq] at hd
      exact hd.symm
  unfold betterFormat at h0
  split at h0
  · rename_i hc
    rw [Outcome.bind_eq_ok] at h0; obtain ⟨l, hl, h0⟩ := h0
    cases hg : getTargetFormat pl input (l ++ j.additional) with
    | some x => rw [hg] at h0; cases h0; exact (C29_target_format _ _ _ _ hg).2.1
    | none => rw [hg, hc] at h0; cases h0; exact absurd rfl hne
  · rename_i hc
    cases h0
    unfold startFormat at hc ⊢
    by_cases hx : b = false ∧ canConvert pl input d = false
    · rw [if_pos hx] at hc; exact absurd rfl hc
    · rw [if_neg hx] at hc ⊢
      have hbf : b = false := by
        cases hbb : b with
        | false => rfl
        | true => exact absurd (hset hbb) hc
      have : canConvert pl input d = true := by
        cases hcc : canConvert pl input d with
        | true => rfl
        | false => exact absurd ⟨hbf, hcc⟩ hx
      exact Option.isSome_iff_exists.mp this

/-- A printer for PWG raster with gzip, for the examples. -/
def examplePrinter : Attrs :=
  [(ascii "compression-supported", (0x44, .set [.str (ascii "none"), .str (ascii "gzip")])),
   (ascii "document-format-default", (0x49, .str octetStream)),
   (ascii "document-format-supported", (0x49, .set [.str octetStream, .str urf, .str pwg])),
   (ascii "pwg-raster-document-resolution-supported", (0x32, .set [.res 300 300 3, .res 600 600 3])),
   (ascii "pwg-raster-document-sheet-back", (0x44, .str (ascii "rotated")))]

/-- The error and some facts of a finalized job. -/
def finalized (pl : Pipelines) (input : Bytes) (pages : Int) (j : PrintJob) : Bool :=
  match finalize pl input pages j with
  | .ok (none, _) => true
  | _ => false

theorem finalized_ok {pl : Pipelines} {input : Bytes} {pages : Int} {j : PrintJob} (h : finalized pl input pages j = true) :
    ∃ j', finalize pl input pages j = .ok (none, j') := by
  unfold finalized at h
  split at h
  · exact ⟨_, by assumption⟩
  · cases h

/-- A job with copies, two sides, page ranges and a resolution. -/
def exampleJob : PrintJob :=
  { PrintJob.new examplePrinter [] with
    jobAttrs := [(ascii "copies", (0x21, .int 3)), (ascii "page-ranges", (0x33, .set [.range 2 3, .range 5 5])),
                 (ascii "printer-resolution", (0x32, .res 400 400 3)), (ascii "sides", (0x44, .str (ascii "two-sided-long-edge")))] }

example : ∃ j', finalize defaultPipelines pdf 7 exampleJob = .ok (none, j') := finalized_ok (by decide +kernel)

/-! ## C31 -/

/-- C31, what happens to the number of copies `n` that is asked for: the printer is told as before and one copy is made locally; or the
printer is told nothing and the copies are made locally, which happens only for raster that is made locally, for a printer that
does not make copies. The number of copies made locally, times those the printer makes, is `n`, for raster made locally. -/
theorem C31_copies_once (pl : Pipelines) (input : Bytes) (pages : Int) (j j' : PrintJob)
    (h : finalize pl input pages j = .ok (none, j')) (hfresh : j.params.copies = 1)
    (n : Int) (hn : (effective (ascii "copies") j.printerAttrs j.jobAttrs).getD (.int 1) = .int n) (hpos : 1 ≤ n) :
    ((KMap.get? j'.jobAttrs (ascii "copies") = KMap.get? j.jobAttrs (ascii "copies") ∧ j'.params.copies = 1) ∨
     (KMap.get? j'.jobAttrs (ascii "copies") = none ∧ j'.params.copies = n ∧ 1 < n ∧ ¬ MakesCopies j.printerAttrs ∧
        input = pdf ∧ isPrinterRaster j'.targetFormat = true)) ∧
    (input = pdf → isPrinterRaster j'.targetFormat = true →
      ∃ k, PrinterMakes j'.printerAttrs j'.jobAttrs k ∧ (j'.params.copies : Int) * k = n) := by
  obtain ⟨r⟩ := finalize_run h
  have hb := before_raster r
  have hf := adjustRaster_frame r.h8
  have ha := after_frame r
  have ht : j'.targetFormat = r.target := by rw [ha.targetFormat, hf.targetFormat, hb.targetFormat]
  have hpa : j'.printerAttrs = j.printerAttrs := by rw [ha.printerAttrs, hf.printerAttrs, hb.printerAttrs]
  have hraster : (r.j7.params.format = .PWG ∨ r.j7.params.format = .URF) ↔ (input = pdf ∧ isPrinterRaster j'.targetFormat = true) := by
    rw [hb.format, ht]
    unfold formatOf isPrinterRaster
    by_cases hi : input = pdf
    · by_cases h1 : r.target = pwg
      · rw [h1]; simp [hi, show pwg ≠ pdf by decide, show pwg ≠ postscript by decide]
      · by_cases h2 : r.target = urf
        · rw [h2]; simp [hi, show urf ≠ pdf by decide, show urf ≠ postscript by decide, show urf ≠ pwg by decide]
        · simp only [hi, h1, h2, if_true, if_false]
          constructor
          · intro hx
            split at hx
            · simp at hx
            · split at hx <;> simp at hx
          · simp [h1, h2]
    · simp [hi]
  have h7 : KMap.get? r.j7.jobAttrs (ascii "copies") = KMap.get? j.jobAttrs (ascii "copies") := hb.jobAttrs _ (by decide)
  rw [hpa]
  rcases adjustRaster_ok r.h8 with ⟨hnr, e8⟩ | ⟨hr, w, hh, b, hres, hback, hc⟩
  · rw [hraster] at hnr
    refine ⟨.inl ⟨?_, ?_⟩, fun hi hx => absurd ⟨hi, hx⟩ hnr⟩
    · rw [ha.jobAttrs, e8, h7]
    · rw [ha.copies, e8, hb.copies, hfresh]
  · obtain ⟨n', bb, hn', hbb, hcase⟩ := adjustCopies_ok hc
    have hpa7 : (withRaster r.j7 w hh b).printerAttrs = j.printerAttrs := hb.printerAttrs
    have hget : KMap.get? (withRaster r.j7 w hh b).jobAttrs (ascii "copies") = KMap.get? j.jobAttrs (ascii "copies") := by
      rw [← h7]; exact sameBut_erase _ _ _ (by decide)
    have hnn : n' = n := by
      have := getInt_effective (s := sCopies) rfl rfl hn'
      rw [hpa7, effective_congr (name := sCopies.name) hget] at this
      have := this.symm.trans hn
      injection this
    subst hnn
    have hbb := supportsCopies_iff hbb
    rw [hpa7] at hbb
    rcases hcase with ⟨hno, e8⟩ | ⟨hgt, hbf, c, a, sides, hsides, ea, hd⟩
    · have hj : KMap.get? j'.jobAttrs (ascii "copies") = KMap.get? j.jobAttrs (ascii "copies") := by
        rw [ha.jobAttrs, e8, hget]
      have hcp : j'.params.copies = 1 := by rw [ha.copies, e8]; exact hb.copies.trans hfresh
      refine ⟨.inl ⟨hj, hcp⟩, fun _ _ => ⟨n', ?_, by rw [hcp]; simp⟩⟩
      unfold PrinterMakes
      rw [hj]
      unfold effective at hn
      cases hg : KMap.get? j.jobAttrs (ascii "copies") with
      | some x => rw [hg] at hn; simpa using hn
      | none =>
        rw [hg] at hn
        simp only
        by_cases hm : MakesCopies j.printerAttrs
        · exact .inl ⟨hm, hn⟩
        · right
          refine ⟨hm, ?_⟩
          have : bb = false := by
            cases bb with
            | false => rfl
            | true => exact absurd (hbb.mp rfl) hm
          have : ¬ n' > 1 := fun hx => hno ⟨hx, this⟩
          omega
    · subst hbf
      have hm : ¬ MakesCopies j.printerAttrs := fun hx => by have := hbb.mpr hx; cases this
      have hj : KMap.get? j'.jobAttrs (ascii "copies") = none ∧ j'.params.copies = n'.toNat := by
        rw [ha.jobAttrs, ha.copies]
        have hbase : KMap.get? a (ascii "copies") = none := by
          rw [ea]; exact (KMap.get?_erase _ _ _).trans (if_pos rfl)
        rcases dropDuplex_ok hd with e | e
        · rw [e]; exact ⟨hbase, rfl⟩
        · rw [e]
          refine ⟨?_, rfl⟩
          rw [← hbase]; exact sameBut_assign _ _ _ _ (by decide)
      have hcopies : (j'.params.copies : Int) = n' := by rw [hj.2]; omega
      refine ⟨.inr ⟨hj.1, hcopies, hgt, hm, hraster.mp hr⟩, fun _ _ => ⟨1, ?_, by rw [hcopies]; simp⟩⟩
      unfold PrinterMakes
      rw [hj.1]
      exact .inr ⟨hm, rfl⟩

/-- C31, the order of copies that are made locally: they are collated, unless the job (or else the printer's default) asks for uncollated copies. -/
theorem C31_collation (pl : Pipelines) (input : Bytes) (pages : Int) (j j' : PrintJob)
    (h : finalize pl input pages j = .ok (none, j')) (hfresh : j.params.copies = 1 ∧ j.params.collatedCopies = true) (hc : j'.params.copies ≠ 1) :
    j'.params.collatedCopies = true ↔
      effective (ascii "multiple-document-handling") j.printerAttrs j.jobAttrs ≠ some (.str (ascii "separate-documents-uncollated-copies")) := by
  obtain ⟨r⟩ := finalize_run h
  have hb := before_raster r
  have ha := after_frame r
  rcases adjustRaster_ok r.h8 with ⟨_, e8⟩ | ⟨_, w, hh, b, _, _, hcp⟩
  · exact absurd (by rw [ha.copies, e8, hb.copies, hfresh.1]) hc
  · have hpa7 : (withRaster r.j7 w hh b).printerAttrs = j.printerAttrs := hb.printerAttrs
    have hget : KMap.get? (withRaster r.j7 w hh b).jobAttrs (ascii "multiple-document-handling") =
        KMap.get? j.jobAttrs (ascii "multiple-document-handling") := by
      rw [← hb.jobAttrs _ (by decide)]; exact sameBut_erase _ _ _ (by decide)
    unfold adjustCopies at hcp
    obtain ⟨n, _, hcp⟩ := Outcome.bind_eq_ok.mp hcp
    obtain ⟨k, _, hcp⟩ := Outcome.bind_eq_ok.mp hcp
    split at hcp
    · unfold copyLocally at hcp
      obtain ⟨mode, hm, hcp⟩ := Outcome.bind_eq_ok.mp hcp
      obtain ⟨a, _, hcp⟩ := Outcome.bind_eq_ok.mp hcp
      obtain ⟨sides, _, hcp⟩ := Outcome.bind_eq_ok.mp hcp
      have hcol : j'.params.collatedCopies = if mode = ascii "separate-documents-uncollated-copies" then false else true := by
        rw [ha.collated, ← hfresh.2, ← hb.collated]
        rcases dropDuplex_ok hcp with e | e <;> rw [e] <;> rfl
      have he := getStr_effective (s := sMultipleDocumentHandling) rfl rfl hm
      rw [hpa7, effective_congr (name := sMultipleDocumentHandling.name) hget] at he
      replace he : (effective (ascii "multiple-document-handling") j.printerAttrs j.jobAttrs).getD (.str []) = .str mode := he
      rw [hcol]
      constructor
      · intro hx h1
        rw [h1] at he
        simp only [Option.getD_some, Value.str.injEq] at he
        rw [if_pos he.symm] at hx; cases hx
      · intro hx
        rw [if_neg]
        intro hmode
        cases hg : effective (ascii "multiple-document-handling") j.printerAttrs j.jobAttrs with
        | none => rw [hg, hmode] at he; simp only [Option.getD_none, Value.str.injEq] at he; exact absurd he (by decide)
        | some v =>
          rw [hg] at he hx
          simp only [Option.getD_some] at he
          rw [he, hmode] at hx
          exact hx rfl
    · injection hcp with hcp
      exact absurd (by rw [ha.copies, ← hcp]; exact hb.copies.trans hfresh.1) hc

/-- Three copies, for a printer that makes none, uncollated. -/
def uncollatedJob : PrintJob :=
  let handling : Attr := (0x44, .str (ascii "separate-documents-uncollated-copies"))
  { exampleJob with jobAttrs := KMap.assign exampleJob.jobAttrs (ascii "multiple-document-handling") handling }

example : (match finalize defaultPipelines pdf 7 uncollatedJob with
    | .ok (none, j') => decide (j'.params.copies = 3 ∧ j'.params.collatedCopies = false)
    | _ => false) = true ∧ uncollatedJob.params.collatedCopies = true ∧ uncollatedJob.params.copies = 1 := by decide +kernel

/-- C31, down to the page sequence: a document of `m` pages that is rendered locally has every page as often as it is selected, times
the copies that are made locally. -/
theorem C31_page_sequence (pl : Pipelines) (input : Bytes) (pages : Int) (j j' : PrintJob)
    (_h : finalize pl input pages j = .ok (none, j')) (m : Nat) (hc : 1 ≤ j'.params.copies) :
    ∃ base seq, { j'.params with copies := 1 }.pageSequence m = .ok base ∧ j'.params.pageSequence m = .ok seq ∧
      ∀ q, 1 ≤ q → seq.count q = j'.params.copies * base.count q := by
  by_cases h1 : 1 < j'.params.copies
  · obtain ⟨base, run, seq, hb, hs, _, _, _, _, _, hq, _⟩ := C16_copies j'.params m h1
    exact ⟨base, seq, hb, hs, hq⟩
  · have h1 : j'.params.copies = 1 := by omega
    have he : { j'.params with copies := 1 } = j'.params := by rw [← h1]
    rw [he]
    have : ∃ s, j'.params.pageSequence m = .ok s := by
      unfold Params.pageSequence
      simp only []
      rw [if_neg (by omega)]
      exact ⟨_, rfl⟩
    obtain ⟨s, hs⟩ := this
    exact ⟨s, s, hs, hs, fun q _ => by rw [h1]; simp⟩

example : exampleJob.params.copies = 1 ∧
    (effective (ascii "copies") exampleJob.printerAttrs exampleJob.jobAttrs).getD (.int 1) = .int 3 := by decide +kernel

/-! ## C32 -/

theorem getList_values {a : Attrs} {t : Ty} {name : Bytes} {l : List Value} (h : Attrs.getList a t name = .ok l) :
    l = values (KMap.get? a name) ∧ ∀ v ∈ l, v.ty = some t := by
  unfold Attrs.getList at h
  cases hg : KMap.get? a name with
  | none => rw [hg] at h; cases h; simp [values]
  | some x =>
    rw [hg] at h
    obtain ⟨tag, v⟩ := x
    obtain ⟨rfl, hty⟩ := getAll_ok' h
    refine ⟨?_, hty⟩
    cases v <;> rfl

/-- C32: for PDF input the page-ranges attribute is removed, and its ranges are added to those that are applied locally; for any other
input the attribute stays as it is and nothing is added. -/
theorem C32_page_ranges_once (pl : Pipelines) (input : Bytes) (pages : Int) (j j' : PrintJob)
    (h : finalize pl input pages j = .ok (none, j')) :
    (input = pdf → KMap.get? j'.jobAttrs (ascii "page-ranges") = none ∧ ∃ rs,
      j'.params.pageRangeList = j.params.pageRangeList ++ rs ∧
      All2 (fun v r => ∃ low high : Int, v = .range low high ∧ (0 ≤ low → low < 2 ^ 64 → (r.1 : Int) = low) ∧
        (0 ≤ high → high < 2 ^ 64 → (r.2 : Int) = high)) (values (KMap.get? j.jobAttrs (ascii "page-ranges"))) rs) ∧
    (input ≠ pdf → KMap.get? j'.jobAttrs (ascii "page-ranges") = KMap.get? j.jobAttrs (ascii "page-ranges") ∧
      j'.params.pageRangeList = j.params.pageRangeList) := by
  obtain ⟨r⟩ := finalize_run h
  have hb := before_raster r
  have hf := adjustRaster_frame r.h8
  have ha := after_frame r
  have h1 : KMap.get? j'.jobAttrs (ascii "page-ranges") = KMap.get? r.j7.jobAttrs (ascii "page-ranges") := by
    rw [ha.jobAttrs]; exact hf.jobAttrs _ (by decide)
  have h2 : j'.params.pageRangeList = r.j7.params.pageRangeList := by rw [ha.ranges, hf.ranges]
  rw [h1, h2]
  rcases hb.ranges with ⟨hi, h3, h4⟩ | ⟨hi, h3, l, hl, h4⟩
  · exact ⟨fun hx => absurd hx hi, fun _ => ⟨h4, h3⟩⟩
  · refine ⟨fun _ => ⟨h3, _, h4, ?_⟩, fun hx => absurd hi hx⟩
    obtain ⟨rfl, hty⟩ := getList_values hl
    generalize values _ = l at hty ⊢
    clear h4 h2 hl
    induction l with
    | nil => exact .nil
    | cons v l ih =>
      refine .cons ?_ (ih (fun w hw => hty w (List.mem_cons_of_mem _ hw)))
      have := hty v (List.mem_cons_self ..)
      cases v <;> simp [Value.ty] at this
      rename_i low high
      refine ⟨low, high, rfl, fun h1 h2 => ?_, fun h1 h2 => ?_⟩ <;> (simp only [rangeOf, toSize]; omega)

/-- C32, down to the pages: for a new job with PDF input, ranges which start at page 1 or later, and a document of `m` pages, the pages
that are rendered are those in the ranges, or all if there are none. -/
theorem C32_pages_rendered (pl : Pipelines) (pages : Int) (j j' : PrintJob)
    (h : finalize pl pdf pages j = .ok (none, j')) (hfresh : j.params.pageRangeList = [])
    (hpos : ∀ low high : Int, .range low high ∈ values (KMap.get? j.jobAttrs (ascii "page-ranges")) →
      1 ≤ low ∧ low < 2 ^ 31 ∧ 0 ≤ high ∧ high < 2 ^ 31) (hc : 1 ≤ j'.params.copies) (m : Nat) :
    ∃ seq, j'.params.pageSequence m = .ok seq ∧ ∀ q : Nat, 1 ≤ q → (q ∈ seq ↔ q ≤ m ∧
      (values (KMap.get? j.jobAttrs (ascii "page-ranges")) = [] ∨
       ∃ low high : Int, .range low high ∈ values (KMap.get? j.jobAttrs (ascii "page-ranges")) ∧ low ≤ q ∧ q ≤ high)) := by
  obtain ⟨_, rs, hrs, hall⟩ := (C32_page_ranges_once pl pdf pages j j' h).1 rfl
  rw [hfresh, List.nil_append] at hrs
  obtain ⟨base, seq, hb, hs, hq⟩ := C31_page_sequence pl pdf pages j j' h m hc
  refine ⟨seq, hs, fun q hq1 => ?_⟩
  have hmem : q ∈ seq ↔ q ∈ base := by
    rw [← List.count_pos_iff, ← List.count_pos_iff, hq q hq1]
    constructor
    · intro hx; exact Nat.pos_of_mul_pos_left hx
    · intro hx; exact Nat.mul_pos (by omega) hx
  have hbase : base = selectedPages (if rs = [] then [(1, m)] else rs) m := by
    unfold Params.pageSequence at hb
    simp only [] at hb
    rw [if_neg (by omega), hrs] at hb
    injection hb with hb; exact hb.symm
  rw [hmem, hbase, mem_selectedPages]
  generalize values (KMap.get? j.jobAttrs (ascii "page-ranges")) = l at hall hpos
  by_cases hl : rs = []
  · subst hl
    cases hall
    simp only [if_true, List.mem_cons, List.not_mem_nil, or_false, exists_eq_left, true_or, and_true]
    omega
  · rw [if_neg hl]
    have hlne : l ≠ [] := by rintro rfl; cases hall; exact hl rfl
    simp only [hlne, false_or]
    have key : (∃ r ∈ rs, r.1 ≤ q ∧ q ≤ r.2) ↔ ∃ low high : Int, Value.range low high ∈ l ∧ low ≤ q ∧ (q : Int) ≤ high := by
      clear hrs hbase hl hlne
      induction hall with
      | nil => simp
      | cons hr _ ih =>
        rename_i v r l rs _
        obtain ⟨low, high, rfl, h1, h2⟩ := hr
        obtain ⟨p1, p2, p3, p4⟩ := hpos low high (List.mem_cons_self ..)
        have h1 := h1 (by omega) (by omega)
        have h2 := h2 (by omega) (by omega)
        have ih := ih (fun low high hm => hpos low high (List.mem_cons_of_mem _ hm))
        constructor
        · rintro ⟨r', hr', h3, h4⟩
          rcases List.mem_cons.mp hr' with rfl | hr'
          · exact ⟨low, high, List.mem_cons_self .., by omega, by omega⟩
          · obtain ⟨low', high', h5, h6⟩ := ih.mp ⟨r', hr', h3, h4⟩
            exact ⟨low', high', List.mem_cons_of_mem _ h5, h6⟩
        · rintro ⟨low', high', h5, h6, h7⟩
          rcases List.mem_cons.mp h5 with h5 | h5
          · injection h5 with e1 e2
            subst e1 e2
            exact ⟨r, List.mem_cons_self .., by omega, by omega⟩
          · obtain ⟨r', hr', h8⟩ := ih.mpr ⟨low', high', h5, h6, h7⟩
            exact ⟨r', List.mem_cons_of_mem _ hr', h8⟩
    constructor
    · rintro ⟨r, h1, h2, h3, h4⟩; exact ⟨h4, key.mp ⟨r, h1, h2, h3⟩⟩
    · rintro ⟨h1, h2⟩
      obtain ⟨r, h3, h4, h5⟩ := key.mpr h2
      exact ⟨r, h3, h4, h5, h1⟩

end Verif.Job
