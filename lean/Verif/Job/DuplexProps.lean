import Verif.Job.JobProps

/-!
# Properties of print jobs: C34 (back side), C35 (two-sided), C36 (compression)
-/

namespace Verif.Job

open Ipp Spec

theorem format_raster {pl : Pipelines} {input : Bytes} {pages : Int} {j j' : PrintJob} (r : Run pl input pages j j') :
    r.j7.params.format = j'.params.format ∧ j'.printerAttrs = j.printerAttrs ∧ r.j7.printerAttrs = j.printerAttrs := by
  have hb := before_raster r
  have hf := adjustRaster_frame r.h8
  have ha := after_frame r
  exact ⟨by rw [ha.format, hf.format], by rw [ha.printerAttrs, hf.printerAttrs, hb.printerAttrs], hb.printerAttrs⟩

/-- After `adjustCopies` most parameters are as before. -/
theorem adjustCopies_params {pages : Int} {j j' : PrintJob} (h : adjustCopies pages j = .ok j') :
    j'.params.backXformMode = j.params.backXformMode ∧ j'.params.hwResW = j.params.hwResW ∧ j'.params.hwResH = j.params.hwResH := by
  obtain ⟨n, bb, _, _, ⟨_, rfl⟩ | ⟨_, _, c, a, sides, _, rfl, hd⟩⟩ := adjustCopies_ok h
  · exact ⟨rfl, rfl, rfl⟩
  · rcases dropDuplex_ok hd with rfl | rfl <;> exact ⟨rfl, rfl, rfl⟩

/-! ## C34 -/

theorem urfBack_spec (l : List Bytes) (m : BackXform) (h : ∀ m', urfKeyword m' ∈ l ↔ m' = m) : urfBack l .Normal = m := by
  unfold urfBack
  have h2 := h .Flipped
  have h3 := h .Rotated
  have h4 := h .ManualTumble
  simp only [urfKeyword] at h2 h3 h4
  simp only [List.contains_iff_mem, h2, h3, h4]
  cases m <;> simp

/-- C34, which of the two applies: raster is made locally exactly of PDF for a target format that is raster, and it has that format. -/
theorem C34_format (pl : Pipelines) (input : Bytes) (pages : Int) (j j' : PrintJob) (h : finalize pl input pages j = .ok (none, j')) :
    (j'.params.format = .PWG ↔ input = pdf ∧ j'.targetFormat = pwg) ∧ (j'.params.format = .URF ↔ input = pdf ∧ j'.targetFormat = urf) := by
  obtain ⟨r⟩ := finalize_run h
  have hb := before_raster r
  have hf := adjustRaster_frame r.h8
  have ha := after_frame r
  rw [ha.format, hf.format, hb.format, ha.targetFormat, hf.targetFormat, hb.targetFormat]
  unfold formatOf
  by_cases hi : input = pdf
  · rw [if_pos hi]
    by_cases h1 : r.target = pdf
    · rw [if_pos h1, h1]; simp [show pdf ≠ pwg by decide, show pdf ≠ urf by decide]
    · rw [if_neg h1]
      by_cases h2 : r.target = postscript
      · rw [if_pos h2, h2]; simp [show postscript ≠ pwg by decide, show postscript ≠ urf by decide]
      · rw [if_neg h2]
        by_cases h3 : r.target = pwg
        · rw [if_pos h3, h3]; simp [hi, show pwg ≠ urf by decide]
        · rw [if_neg h3]
          by_cases h4 : r.target = urf
          · rw [if_pos h4, h4]; simp [hi, show urf ≠ pwg by decide]
          · rw [if_neg h4]; simp [h3, h4]
  · rw [if_neg hi]; simp [hi]

/-- C34, PWG: the back side transformation is the one that the printer declares, and the normal one if it declares none. -/
theorem C34_back_side_pwg (pl : Pipelines) (input : Bytes) (pages : Int) (j j' : PrintJob)
    (h : finalize pl input pages j = .ok (none, j')) (hfresh : j.params.backXformMode = .Normal) (hf : j'.params.format = .PWG) :
    (∀ m tag, KMap.get? j.printerAttrs (ascii "pwg-raster-document-sheet-back") = some (tag, .str (pwgKeyword m)) →
      j'.params.backXformMode = m) ∧
    ((∀ m tag, KMap.get? j.printerAttrs (ascii "pwg-raster-document-sheet-back") ≠ some (tag, .str (pwgKeyword m))) →
      j'.params.backXformMode = .Normal) := by
  obtain ⟨r⟩ := finalize_run h
  obtain ⟨e1, e2, e3⟩ := format_raster r
  have hb := before_raster r
  have ha := after_frame r
  rw [hf] at e1
  rcases adjustRaster_ok r.h8 with ⟨hnr, _⟩ | ⟨_, w, hh, b, _, hback, hc⟩
  · exact absurd (.inl e1) hnr
  · have hj' : j'.params.backXformMode = b := by rw [ha.back, (adjustCopies_params hc).1]; rfl
    rw [hj']
    unfold adjustBack at hback
    have hp : (withRaster r.j7 w hh r.j7.params.backXformMode).params.format = .PWG := e1
    rw [if_pos hp, Outcome.bind_eq_ok] at hback
    obtain ⟨s, hs, hback⟩ := hback
    have hs : Attrs.get j.printerAttrs .str (ascii "pwg-raster-document-sheet-back") (.str []) = .ok s := by rw [← hs, ← e3]; rfl
    have hbe : b = sheetBack (strOf s) .Normal := by
      have hb0 : r.j7.params.backXformMode = .Normal := hb.back.trans hfresh
      rw [← hb0]
      injection hback with hback
      have := congrArg (fun x => x.params.backXformMode) hback
      exact this.symm
    unfold Attrs.get at hs
    cases hg : KMap.get? j.printerAttrs (ascii "pwg-raster-document-sheet-back") with
    | none =>
      rw [hg] at hs; cases hs
      refine ⟨fun m tag hx => ?_, fun _ => hbe⟩
      cases hx
    | some x =>
      rw [hg] at hs
      obtain ⟨rfl, hty⟩ := getAs_ok hs
      obtain ⟨tag, v⟩ := x
      have hv := strOf_ty hty
      simp only at hv
      constructor
      · intro m tag' hx
        cases hx
        rw [hbe]
        show sheetBack (pwgKeyword m) .Normal = m
        cases m <;> decide
      · intro hn
        rw [hbe]
        have n1 : strOf v ≠ ascii "flipped" := fun hx => hn .Flipped tag (by rw [hv, hx]; rfl)
        have n2 : strOf v ≠ ascii "rotated" := fun hx => hn .Rotated tag (by rw [hv, hx]; rfl)
        have n3 : strOf v ≠ ascii "manual-tumble" := fun hx => hn .ManualTumble tag (by rw [hv, hx]; rfl)
        unfold sheetBack
        rw [if_neg n1, if_neg n2, if_neg n3]

/-- C34, URF: the back side transformation is the one that the printer declares, if it declares one; and it is never one, apart from the
normal one, that the printer does not declare. -/
theorem C34_back_side_urf (pl : Pipelines) (input : Bytes) (pages : Int) (j j' : PrintJob)
    (h : finalize pl input pages j = .ok (none, j')) (hfresh : j.params.backXformMode = .Normal) (hf : j'.params.format = .URF) :
    (∀ m, (∀ m', Ipp.Spec.Declares (KMap.get? j.printerAttrs (ascii "urf-supported")) (.str (urfKeyword m')) ↔ m' = m) →
      j'.params.backXformMode = m) ∧
    (j'.params.backXformMode ≠ .Normal →
      Ipp.Spec.Declares (KMap.get? j.printerAttrs (ascii "urf-supported")) (.str (urfKeyword j'.params.backXformMode))) := by
  obtain ⟨r⟩ := finalize_run h
  obtain ⟨e1, e2, e3⟩ := format_raster r
  have hb := before_raster r
  have ha := after_frame r
  rw [hf] at e1
  rcases adjustRaster_ok r.h8 with ⟨hnr, _⟩ | ⟨_, w, hh, b, _, hback, hc⟩
  · exact absurd (.inr e1) hnr
  · have hj' : j'.params.backXformMode = b := by rw [ha.back, (adjustCopies_params hc).1]; rfl
    rw [hj']
    unfold adjustBack at hback
    have hnp : (withRaster r.j7 w hh r.j7.params.backXformMode).params.format ≠ .PWG := by
      show r.j7.params.format ≠ .PWG
      rw [e1]; decide
    rw [if_neg hnp, Outcome.bind_eq_ok] at hback
    obtain ⟨l, hl, hback⟩ := hback
    have hl : strList j.printerAttrs (ascii "urf-supported") = .ok l := by rw [← hl, ← e3]; rfl
    have hm := mem_strList hl
    have hbe : b = urfBack l .Normal := by
      have hb0 : r.j7.params.backXformMode = .Normal := hb.back.trans hfresh
      rw [← hb0]
      injection hback with hback
      have := congrArg (fun x => x.params.backXformMode) hback
      exact this.symm
    constructor
    · intro m hm'
      rw [hbe]
      exact urfBack_spec l m (fun m' => by rw [hm]; exact hm' m')
    · intro hne
      rw [← hm, hbe]
      rw [hbe] at hne
      unfold urfBack at hne ⊢
      split
      · rename_i hc; exact List.contains_iff_mem.mp hc
      · split
        · rename_i hc; exact List.contains_iff_mem.mp hc
        · split
          · rename_i hc; exact List.contains_iff_mem.mp hc
          · rename_i h1 h2 h3
            rw [if_neg h1, if_neg h2, if_neg h3] at hne
            exact absurd rfl hne

/-- The example job is for PWG, and its printer declares "rotated". -/
example : ∃ j', finalize defaultPipelines pdf 7 exampleJob = .ok (none, j') ∧ j'.params.format = .PWG ∧
    j'.params.backXformMode = .Rotated := by
  have h : (match finalize defaultPipelines pdf 7 exampleJob with
    | .ok (none, j') => decide (j'.params.format = .PWG ∧ j'.params.backXformMode = .Rotated)
    | _ => false) = true := by decide +kernel
  split at h
  · exact ⟨_, by assumption, by simpa using h⟩
  · cases h

/-! ## C35 -/

theorem noTwoDifferent_spec {l : List Nat} (h : noTwoDifferent l = true) : ∀ p ∈ l, ∀ q ∈ l, p = q := by
  have key : ∀ (l : List Nat) (a : Nat), noTwoDifferent (a :: l) = true → ∀ p ∈ a :: l, p = a := by
    intro l
    induction l with
    | nil => intro a _ p hp; simpa using hp
    | cons b l ih =>
      intro a h p hp
      simp only [noTwoDifferent, Bool.and_eq_true, beq_iff_eq] at h
      rcases List.mem_cons.mp hp with rfl | hp
      · rfl
      · rw [h.1]; exact ih b h.2 p hp
  cases l with
  | nil => intro p hp; cases hp
  | cons a l =>
    intro p hp q hq
    rw [key l a h p hp, key l a h q hq]

/-- The full C35: the request for two sides is kept when more than one page is selected, and otherwise only changed to one-sided. -/
def C35_full : Prop :=
  ∀ (pl : Pipelines) (input : Bytes) (pages : Int) (j j' : PrintJob), finalize pl input pages j = .ok (none, j') → 0 ≤ pages →
    j.params = {} → (∀ n : Int, (effective (ascii "copies") j.printerAttrs j.jobAttrs).getD (.int 1) = .int n → 1 ≤ n) →
    KMap.get? j'.jobAttrs (ascii "sides") = KMap.get? j.jobAttrs (ascii "sides") ∨
      (KMap.get? j'.jobAttrs (ascii "sides") = some (0x44, .str (ascii "one-sided")) ∧
       -- the number of pages is known, and all selected ones are the same
       0 < pages ∧ ∀ p q : Nat, Selected j'.params.pageRangeList pages.toNat p → Selected j'.params.pageRangeList pages.toNat q → p = q)

/-- C35 for a document of a known number of pages. The attribute, and the duplex mode used for rendering, are as requested when at
least two different pages are selected; if not they are as requested or changed to one-sided. Nothing is changed when
the printer makes the copies, or just one copy is wanted, whatever the number of pages.
Missing to the full C35: an unknown number of pages with copies made locally. -/
theorem C35_two_sided_partial (pl : Pipelines) (input : Bytes) (pages : Int) (j j' : PrintJob)
    (h : finalize pl input pages j = .ok (none, j')) (hfresh : j.params = {}) (n : Int)
    (hn : (effective (ascii "copies") j.printerAttrs j.jobAttrs).getD (.int 1) = .int n) (hpages : pages < 2 ^ 64)
    (hknown : 0 < pages ∨ n ≤ 1 ∨ MakesCopies j.printerAttrs) :
    (KMap.get? j'.jobAttrs (ascii "sides") = KMap.get? j.jobAttrs (ascii "sides") ∨
      (KMap.get? j'.jobAttrs (ascii "sides") = some (0x44, .str (ascii "one-sided")) ∧
       0 < pages ∧ ∀ p q : Nat, Selected j'.params.pageRangeList pages.toNat p → Selected j'.params.pageRangeList pages.toNat q → p = q)) ∧
    (∀ s, (effective (ascii "sides") j'.printerAttrs j'.jobAttrs) = some (.str s) →
      (s = ascii "two-sided-long-edge" → j'.params.duplexMode = .TwoSidedLongEdge) ∧
      (s = ascii "two-sided-short-edge" → j'.params.duplexMode = .TwoSidedShortEdge) ∧
      (s = ascii "one-sided" → j'.params.duplexMode = .OneSided)) := by
  obtain ⟨r⟩ := finalize_run h
  have hb := before_raster r
  have hf := adjustRaster_frame r.h8
  have ha := after_frame r
  have h7 : KMap.get? r.j7.jobAttrs (ascii "sides") = KMap.get? j.jobAttrs (ascii "sides") := hb.jobAttrs _ (by decide)
  constructor
  · rw [ha.jobAttrs]
    rcases adjustRaster_ok r.h8 with ⟨hnr, e8⟩ | ⟨hr, w, hh, b, _, _, hc⟩
    · left; rw [e8, h7]
    · obtain ⟨n', bb, hn', hbb, hcase⟩ := adjustCopies_ok hc
      have hpa7 : (withRaster r.j7 w hh b).printerAttrs = j.printerAttrs := hb.printerAttrs
      have hgets : KMap.get? (withRaster r.j7 w hh b).jobAttrs (ascii "sides") = KMap.get? j.jobAttrs (ascii "sides") := by
        rw [← h7]; exact sameBut_erase _ _ _ (by decide)
      have hget : KMap.get? (withRaster r.j7 w hh b).jobAttrs (ascii "copies") = KMap.get? j.jobAttrs (ascii "copies") := by
        rw [← hb.jobAttrs (ascii "copies") (by decide)]; exact sameBut_erase _ _ _ (by decide)
      have hnn : n' = n := by
        have := getInt_effective (s := sCopies) rfl rfl hn'
        rw [hpa7, effective_congr (name := sCopies.name) hget] at this
        have := this.symm.trans hn
        injection this
      subst hnn
      have hbb := supportsCopies_iff hbb
      rw [hpa7] at hbb
      rcases hcase with ⟨hno, e8⟩ | ⟨hgt, hbf, c, a, sides, hsides, ea, hd⟩
      · left; rw [e8, hgets]
      · subst hbf
        have hpos : 0 < pages := by
          rcases hknown with hk | hk | hk
          · exact hk
          · omega
          · exact absurd (hbb.mpr hk) (by simp)
        have hrl : j'.params.pageRangeList = r.j7.params.pageRangeList := by rw [ha.ranges, hf.ranges]
        have hsa : KMap.get? a (ascii "sides") = KMap.get? j.jobAttrs (ascii "sides") := by
          rw [ea, ← hgets]; exact sameBut_erase _ _ _ (by decide)
        unfold dropDuplex at hd
        split at hd
        · injection hd with hd; rw [← hd]; exact .inl hsa
        · rw [Outcome.bind_eq_ok] at hd; obtain ⟨seq, hseq, hd⟩ := hd
          split at hd
          · rename_i hcond
            rw [set_top rfl, Outcome.bind_ok] at hd
            injection hd with hd
            right
            refine ⟨?_, hpos, ?_⟩
            · rw [← hd]; exact (KMap.get?_assign_any _ _ _ _).trans (if_pos rfl)
            · intro p q hp hq
              rcases hcond with h1 | h1
              · have := hp.1; have := hp.2.1; have := hq.1; have := hq.2.1; omega
              · have hsz : toSize pages = pages.toNat := by unfold toSize; omega
                rw [hsz] at hseq
                have hcop : 1 < n'.toNat := by omega
                have c16 := C16_copies
                  { (withRaster r.j7 w hh b).params with copies := n'.toNat, collatedCopies := c } pages.toNat hcop
                obtain ⟨base, run, seq', hbase, hseq', _, _, _, _, _, hcount, _⟩ := c16
                have : seq' = seq := by
                  have := hseq'.symm.trans hseq
                  injection this
                subst this
                have hbase' : base = selectedPages (if r.j7.params.pageRangeList = [] then [(1, pages.toNat)]
                    else r.j7.params.pageRangeList) pages.toNat := by
                  injection hbase with hbase; exact hbase.symm
                have hmem : ∀ x, Selected j'.params.pageRangeList pages.toNat x → x ∈ seq' := by
                  rw [hrl]
                  intro x hx
                  have hxb : x ∈ base := by
                    rw [hbase', mem_selectedPages]
                    obtain ⟨h2, h3, h4⟩ := hx
                    by_cases he : r.j7.params.pageRangeList = []
                    · rw [if_pos he]; exact ⟨_, List.mem_cons_self .., h2, h3, h3⟩
                    · rw [if_neg he]
                      rcases h4 with h4 | ⟨r', h4, h5, h6⟩
                      · exact absurd h4 he
                      · exact ⟨r', h4, h5, h6, h3⟩
                  rw [← List.count_pos_iff, hcount x hx.1]
                  exact Nat.mul_pos (by show 0 < n'.toNat; omega) (List.count_pos_iff.mpr hxb)
                exact noTwoDifferent_spec h1 p (hmem p hp) q (hmem q hq)
          · injection hd with hd; rw [← hd]; exact .inl hsa
  · intro s hs
    obtain ⟨s', hs', hd⟩ := ha.duplex
    have := getStr_effective (s := sSides) rfl rfl hs'
    rw [← ha.jobAttrs, ← ha.printerAttrs, show sSides.name = ascii "sides" from rfl, hs] at this
    simp only [Option.getD_some, Value.str.injEq] at this
    subst this
    have hd8 : r.j8.params.duplexMode = .OneSided := by rw [hf.duplex, hb.duplex, hfresh]
    rw [hd, hd8]
    refine ⟨?_, ?_, ?_⟩ <;> (rintro rfl; decide)

/-- A job for two copies on two sides, for a printer that makes no copies. -/
def duplexCopiesJob : PrintJob :=
  { PrintJob.new examplePrinter [] with
    jobAttrs := [(ascii "copies", (0x21, .int 2)), (ascii "sides", (0x44, .str (ascii "two-sided-long-edge")))] }

example : duplexCopiesJob.params = {} ∧ finalized defaultPipelines pdf 3 duplexCopiesJob = true ∧
    (effective (ascii "copies") duplexCopiesJob.printerAttrs duplexCopiesJob.jobAttrs).getD (.int 1) = .int 2 := by decide +kernel

/-- C35 is false of the code: when the number of pages is not known (0, the default argument of `runJob`), two copies made locally turn
a two-sided job into a one-sided one. -/
theorem C35_two_sided_false : ¬ C35_full := by
  intro hfull
  obtain ⟨j', hj⟩ := finalized_ok (pl := defaultPipelines) (input := pdf) (pages := 0) (j := duplexCopiesJob) (by decide +kernel)
  have hb : (match finalize defaultPipelines pdf 0 duplexCopiesJob with
    | .ok (none, j') => decide (KMap.get? j'.jobAttrs (ascii "sides") = some (0x44, .str (ascii "one-sided")))
    | _ => false) = true := by decide +kernel
  rw [hj] at hb
  simp only [decide_eq_true_eq] at hb
  rcases hfull _ _ _ _ _ hj (by decide) rfl (by
    intro n hn
    have : (effective (ascii "copies") duplexCopiesJob.printerAttrs duplexCopiesJob.jobAttrs).getD (.int 1) = .int 2 := by decide +kernel
    rw [this] at hn; injection hn with hn; omega) with h1 | ⟨_, h1, _⟩
  · rw [hb] at h1
    exact absurd h1 (by decide +kernel)
  · omega

/-! ## C36 -/

/-- The full C36. -/
def C36_full : Prop :=
  ∀ (pl : Pipelines) (input : Bytes) (pages : Int) (j j' : PrintJob), finalize pl input pages j = .ok (none, j') →
    (∀ x, KMap.get? j.opAttrs (ascii "compression") = some x → KMap.get? j'.opAttrs (ascii "compression") = some x) ∧
    (KMap.get? j.opAttrs (ascii "compression") = none → ∀ x, KMap.get? j'.opAttrs (ascii "compression") = some x →
      isPrinterRaster j'.targetFormat = true ∧
      Ipp.Spec.Declares (KMap.get? j.printerAttrs (ascii "compression-supported")) x.2)

/-- C36 when the user has not set a compression: it is sent only for raster, and only one that the printer lists; gzip if that is listed,
else deflate if that is listed. A compression set by the user is kept for formats other than raster, and for raster if the
printer lists neither gzip nor deflate.
Missing to the full C36: keeping the user's compression for raster. -/
theorem C36_compression_partial (pl : Pipelines) (input : Bytes) (pages : Int) (j j' : PrintJob)
    (h : finalize pl input pages j = .ok (none, j')) :
    let listed := fun c => Ipp.Spec.Declares (KMap.get? j.printerAttrs (ascii "compression-supported")) (.str c)
    (isPrinterRaster j'.targetFormat = false →
      KMap.get? j'.opAttrs (ascii "compression") = KMap.get? j.opAttrs (ascii "compression")) ∧
    (isPrinterRaster j'.targetFormat = true → listed (ascii "gzip") →
      KMap.get? j'.opAttrs (ascii "compression") = some (0x44, .str (ascii "gzip"))) ∧
    (isPrinterRaster j'.targetFormat = true → ¬ listed (ascii "gzip") → listed (ascii "deflate") →
      KMap.get? j'.opAttrs (ascii "compression") = some (0x44, .str (ascii "deflate"))) ∧
    (isPrinterRaster j'.targetFormat = true → ¬ listed (ascii "gzip") → ¬ listed (ascii "deflate") →
      KMap.get? j'.opAttrs (ascii "compression") = KMap.get? j.opAttrs (ascii "compression")) := by
  intro listed
  obtain ⟨r⟩ := finalize_run h
  have hb := before_raster r
  have hf := adjustRaster_frame r.h8
  have ha := after_frame r
  obtain ⟨f, e1, _⟩ := setDocumentFormat_ok r.h1
  have ht : j'.targetFormat = r.j1.targetFormat := by rw [ha.targetFormat, hf.targetFormat, hb.targetFormat, e1]
  have hop : j'.opAttrs = r.j2.opAttrs := by rw [ha.opAttrs, hf.opAttrs, hb.opAttrs]
  obtain ⟨op, e2, hc⟩ := setCompression_ok r.h2
  have h1 : KMap.get? r.j1.opAttrs (ascii "compression") = KMap.get? j.opAttrs (ascii "compression") := by
    rw [e1]; exact sameBut_assign _ _ _ _ (by decide)
  have hop2 : r.j2.opAttrs = op := by rw [e2]
  have hpa : r.j1.printerAttrs = j.printerAttrs := by rw [e1]
  rw [hop, hop2, ht, ← h1]
  have hl : ∀ l, strList r.j1.printerAttrs (ascii "compression-supported") = .ok l → ∀ c, c ∈ l ↔ listed c := by
    intro l hl c
    rw [hpa] at hl
    exact mem_strList hl c
  have hget : ∀ (a : Attrs) x, KMap.get? (KMap.assign a (ascii "compression") x) (ascii "compression") = some x :=
    fun a x => (KMap.get?_assign_any _ _ _ _).trans (if_pos rfl)
  rcases hc with ⟨hr, rfl⟩ | ⟨hr, l, hll, hc⟩
  · simp [hr]
  · have hl := hl l hll
    rw [hr]
    simp only [Bool.true_eq_false, false_implies, true_implies, true_and]
    rw [← hl, ← hl]
    rcases hc with ⟨h1, rfl⟩ | ⟨h1, h2, rfl⟩ | ⟨h1, h2, rfl⟩
    · exact ⟨fun _ => hget _ _, fun hx => absurd h1 hx, fun hx => absurd h1 hx⟩
    · exact ⟨fun hx => absurd hx h1, fun _ _ => hget _ _, fun _ hx => absurd h2 hx⟩
    · exact ⟨fun hx => absurd hx h1, fun _ hx => absurd hx h2, fun _ _ => rfl⟩

/-- C36, in the words of the property: without a user's choice, what is sent is for raster and listed by the printer. -/
theorem C36_compression_sent_partial (pl : Pipelines) (input : Bytes) (pages : Int) (j j' : PrintJob)
    (h : finalize pl input pages j = .ok (none, j')) (hu : KMap.get? j.opAttrs (ascii "compression") = none) (x : Attr)
    (hx : KMap.get? j'.opAttrs (ascii "compression") = some x) :
    isPrinterRaster j'.targetFormat = true ∧
      Ipp.Spec.Declares (KMap.get? j.printerAttrs (ascii "compression-supported")) x.2 := by
  obtain ⟨h1, h2, h3, h4⟩ := C36_compression_partial pl input pages j j' h
  rw [hu] at h1 h4
  cases hr : isPrinterRaster j'.targetFormat with
  | false => rw [h1 hr] at hx; cases hx
  | true =>
    refine ⟨rfl, ?_⟩
    by_cases hg : Ipp.Spec.Declares (KMap.get? j.printerAttrs (ascii "compression-supported")) (.str (ascii "gzip"))
    · rw [h2 hr hg] at hx; cases hx; exact hg
    · by_cases hd : Ipp.Spec.Declares (KMap.get? j.printerAttrs (ascii "compression-supported")) (.str (ascii "deflate"))
      · rw [h3 hr hg hd] at hx; cases hx; exact hd
      · rw [h4 hr hg hd] at hx; cases hx

example : KMap.get? exampleJob.opAttrs (ascii "compression") = none := by decide +kernel

/-- A job for which the user does not want compression. -/
def uncompressedJob : PrintJob :=
  { PrintJob.new examplePrinter [] with opAttrs := [(ascii "compression", (0x44, .str (ascii "none")))] }

/-- C36 is false of the code: the user's compression "none" is replaced by "gzip". -/
theorem C36_compression_false : ¬ C36_full := by
  intro hfull
  obtain ⟨j', hj⟩ := finalized_ok (pl := defaultPipelines) (input := pdf) (pages := 1) (j := uncompressedJob) (by decide +kernel)
  have hb : (match finalize defaultPipelines pdf 1 uncompressedJob with
    | .ok (none, j') => decide (KMap.get? j'.opAttrs (ascii "compression") = some (0x44, .str (ascii "gzip")))
    | _ => false) = true := by decide +kernel
  rw [hj] at hb
  simp only [decide_eq_true_eq] at hb
  have h1 := (hfull _ _ _ _ _ hj).1 (0x44, .str (ascii "none")) (by decide +kernel)
  rw [hb] at h1
  exact absurd h1 (by decide +kernel)

end Verif.Job
