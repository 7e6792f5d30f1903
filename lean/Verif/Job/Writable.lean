import Verif.Job.SettingProps
import Verif.Job.ResolutionProps
import Verif.Raster.Props

/-!
# Properties of print jobs: C126, a job that was accepted can be written

`IppPrintJob::finalize` (lib/ippprintjob.cpp 5-164) says whether a job is in order, and leaves the print parameters with which
`bmp_to_pwg` (lib/ppm2pwg.cpp 28-98) writes each page. The latter throws where the header of the format has no value
for a parameter (lib/ppm2pwg.cpp 264-268). The tools look at the media type before (utils/ppm2pwg_main.cpp 109,
utils/pdf2printable_main.cpp 186), `finalize` does not. The functions are modelled in `Model.lean` and `Raster/Page.lean`.
-/

namespace Verif.Job

open Ipp

namespace Spec

/-- The page can be written, whatever is on it: a bitmap of the size of the page gives a page of raster. -/
def Writes (p : Params) : Prop :=
  ∀ page bmp, bmp.length = p.heightPx * Raster.Spec.rowBytes p.colorMode p.widthPx → ∃ out, Raster.bmpToPwg p page bmp = .ok out

/-- No page can be written, whatever is on it: the writing ends with an exception. -/
def Refuses (p : Params) : Prop := ∀ page bmp, ∃ e, Raster.bmpToPwg p page bmp = .throws e

/-- The numbers and names of the parameters fit the fields of the headers. -/
structure Room (p : Params) : Prop where
  width : p.widthPx < 2 ^ 32
  height : p.heightPx < 2 ^ 32
  row : Raster.Spec.rowBytes p.colorMode p.widthPx < 2 ^ 32
  res : p.hwResW < 2 ^ 32 ∧ p.hwResH < 2 ^ 32
  points : p.widthPt < 2 ^ 32 ∧ p.heightPt < 2 ^ 32
  mediaType : p.mediaType.length ≤ 64 ∧ ∀ b ∈ p.mediaType, b ≠ 0
  sizeName : p.paperSizeName.length ≤ 64 ∧ ∀ b ∈ p.paperSizeName, b ≠ 0

/-- The job asks for a media type and the printer declares that it has it. -/
def AsksForOffered (j : PrintJob) (t : Bytes) : Prop :=
  (member (ascii "media-type") j.jobAttrs).map Prod.snd = some (.str t) ∧
  Ipp.Spec.Declares (KMap.get? j.printerAttrs (ascii "media-type-supported")) (.str t)

end Spec

open Spec

/-- Without asking what resolution was requested: for URF it ends up symmetric. -/
theorem urf_symmetric {pl : Pipelines} {input : Bytes} {pages : Int} {j j' : PrintJob}
    (h : finalize pl input pages j = .ok (none, j')) (hf : j'.params.format = .URF) : j'.params.hwResW = j'.params.hwResH := by
  obtain ⟨r⟩ := finalize_run h
  obtain ⟨e1, e2, e3⟩ := format_raster r
  have ha := after_frame r
  rw [hf] at e1
  rcases adjustRaster_ok r.h8 with ⟨hnr, _⟩ | ⟨_, w, hh, b, hres, _, hc⟩
  · exact absurd (.inr e1) hnr
  · obtain ⟨_, hw8, hh8⟩ := adjustCopies_params hc
    have hw' : j'.params.hwResW = w := by rw [ha.hwResW, hw8]; rfl
    have hh' : j'.params.hwResH = hh := by rw [ha.hwResH, hh8]; rfl
    rw [hw', hh']
    unfold adjustResolution at hres
    have hp : (withRaster r.j7 r.j7.params.hwResW r.j7.params.hwResH r.j7.params.backXformMode).params.format ≠ .PWG := by
      show r.j7.params.format ≠ .PWG
      rw [e1]; decide
    rw [if_neg hp, Outcome.bind_eq_ok] at hres
    obtain ⟨l, hl, hres⟩ := hres
    rw [Outcome.bind_eq_ok] at hres
    obtain ⟨q, hq, hres⟩ := hres
    injection hres with hres
    exact (congrArg (fun x => x.params.hwResW) hres).symm.trans (congrArg (fun x => x.params.hwResH) hres)

/-- The color mode of an accepted job is the one it had before, or sRGB or gray with 8 bits. -/
theorem colorMode_cases {pl : Pipelines} {input : Bytes} {pages : Int} {j j' : PrintJob}
    (h : finalize pl input pages j = .ok (none, j')) :
    j'.params.colorMode = .sRGB24 ∨ j'.params.colorMode = .Gray8 ∨ j'.params.colorMode = j.params.colorMode := by
  obtain ⟨r⟩ := finalize_run h
  have hb := before_raster r
  have hf := adjustRaster_frame r.h8
  obtain ⟨s, q, l, m', mp, mt, _, _, hl, hm', _, _, e⟩ := after_raster r
  have he : j'.params.colorMode = colorModeOf l m' r.j8.params.colorMode := (congrArg (fun x : PrintJob => x.params.colorMode) e :)
  rw [he, hf.colorMode, hb.colorMode]
  unfold colorModeOf
  by_cases h1 : Text.contains m' (ascii "color") = true
  · rw [if_pos h1]; exact .inl rfl
  · rw [if_neg h1]
    by_cases h2 : Text.contains m' (ascii "monochrome") = true ∨ ¬ l.contains (ascii "color") = true
    · rw [if_pos h2]; exact .inr (.inl rfl)
    · rw [if_neg h2]; exact .inr (.inr rfl)

/-- The media source of an accepted job has a number in the headers. -/
theorem fits_of_room {pl : Pipelines} {input : Bytes} {pages : Int} {j j' : PrintJob}
    (h : finalize pl input pages j = .ok (none, j')) (hp : j.params.mediaPosition < 50) (hr : Room j'.params) :
    Raster.Spec.Fits j'.params := by
  refine ⟨hr.width, hr.height, hr.row, hr.res.1, hr.res.2, hr.points.1, hr.points.2, ?_, hr.mediaType, hr.sizeName⟩
  obtain ⟨h1, h2⟩ := C63_media_source pl input pages j j' h
  cases hm : member (ascii "media-source") j.jobAttrs with
  | none => rw [h2 hm]; exact hp
  | some x =>
    obtain ⟨name, _, hpos⟩ := h1 x hm
    rcases hpos with hpos | ⟨n, h3, h4, _, h5⟩ | ⟨n, h3, h4, _, h5⟩
    · have hall : ∀ x ∈ namedPositions, x.2 < 50 := by decide +kernel
      exact hall _ hpos
    · omega
    · omega

/-- **C126** for URF: of a job that was accepted, each page is written if the media type that it comes to - the one asked for, else the
printer's default - is none or one that URF has, and no page is written otherwise. It starts with a color mode of URF and a media position, as
each new job does. Missing to the full C126: the second case, where it is false (`C126_false`). -/
theorem C126_urf_partial (pl : Pipelines) (input : Bytes) (pages : Int) (j j' : PrintJob)
    (h : finalize pl input pages j = .ok (none, j')) (hf : j'.params.format = .URF)
    (hc : ∃ n, Raster.Spec.urfColorNumber j.params.colorMode n) (hp : j.params.mediaPosition < 50) :
    ∃ t, (effectiveMember (ascii "media-type") j.printerAttrs j.jobAttrs).getD (.str []) = .str t ∧
      ((∃ n, Raster.Spec.urfMediaNumber t n) → Room j'.params → Writes j'.params) ∧
      ((∀ n, ¬ Raster.Spec.urfMediaNumber t n) → Refuses j'.params) := by
  refine ⟨j'.params.mediaType, C63_media_type pl input pages j j' h, ?_, ?_⟩
  · intro hm hfit page bmp hlen
    have hcol : ∃ n, Raster.Spec.urfColorNumber j'.params.colorMode n := by
      rcases colorMode_cases h with e | e | e
      · exact ⟨1, .inl ⟨.inl e, rfl⟩⟩
      · exact ⟨0, .inr (.inr ⟨.inl e, rfl⟩)⟩
      · rw [e]; exact hc
    obtain ⟨hdr, body, ho, _⟩ := (Raster.C11_urf_expressible j'.params page bmp (fits_of_room h hp hfit) hf hlen).1 ⟨urf_symmetric h hf, hcol, hm⟩
    exact ⟨_, ho⟩
  · intro hm page bmp
    obtain ⟨e, he⟩ := Raster.makeUrfHdr_throws j'.params (fun ha => by obtain ⟨n, hn⟩ := ha.2.2; exact hm n hn)
    refine ⟨e, ?_⟩
    have hp : Raster.pageHdr j'.params (Raster.isBackside j'.params page) = .throws e := by
      unfold Raster.pageHdr; rw [if_neg (by simpa using hf), he]; rfl
    unfold Raster.bmpToPwg
    simp only [hp]
    rfl

/-- **C126** for PWG raster: each page of a job that was accepted is written, whatever its media type. -/
theorem C126_pwg (pl : Pipelines) (input : Bytes) (pages : Int) (j j' : PrintJob)
    (h : finalize pl input pages j = .ok (none, j')) (hf : j'.params.format = .PWG) (hp : j.params.mediaPosition < 50)
    (hr : Room j'.params) :
    Writes j'.params := by
  intro page bmp hlen
  obtain ⟨hdr, body, out, ho, _⟩ := Raster.bmpToPwg_spec j'.params page bmp (fits_of_room h hp hr) (fun hx => by rw [hf] at hx; cases hx) (by omega)
  exact ⟨_, ho⟩

/-- The full C126 for URF: a new job that asks for a media type which the printer declares to have, and that is accepted, is not one of which
no page can be written. -/
def C126_full : Prop :=
  ∀ (pl : Pipelines) (input : Bytes) (pages : Int) (attrs : Attrs) (j j' : PrintJob) (t : Bytes),
    j.printerAttrs = attrs → j.params = (PrintJob.new attrs []).params → AsksForOffered j t →
      finalize pl input pages j = .ok (none, j') → j'.params.format = .URF → ¬ Refuses j'.params

/-- A URF printer that has a media type, and a job that asks for it. -/
def typedJob (t : Bytes) : PrintJob :=
  { PrintJob.new [(ascii "document-format-supported", (0x49, .str urf)),
      (ascii "media-type-supported", (0x44, .set [.str (ascii "stationery"), .str (ascii "stationery-lightweight")])),
      (ascii "urf-supported", (0x44, .set [.str (ascii "RS300"), .str (ascii "W8")]))] [] with
    jobAttrs := [(ascii "media-col", (tBeginCollection, .coll [(ascii "media-type", (0x44, .str t))]))] }

example : (∃ j', finalize defaultPipelines pdf 1 (typedJob (ascii "stationery")) = .ok (none, j') ∧ j'.params.format = .URF ∧
      Raster.Spec.urfMediaNumber j'.params.mediaType 1) ∧
    ∃ n, Raster.Spec.urfColorNumber (typedJob (ascii "stationery")).params.colorMode n ∧
    (typedJob (ascii "stationery")).params.mediaPosition < 50 := by
  obtain ⟨j', hj⟩ := finalized_ok (pl := defaultPipelines) (input := pdf) (pages := 1) (j := typedJob (ascii "stationery")) (by decide +kernel)
  have hb : (match finalize defaultPipelines pdf 1 (typedJob (ascii "stationery")) with
    | .ok (none, j') => decide (j'.params.format = .URF ∧ j'.params.mediaType = ascii "stationery")
    | _ => false) = true := by decide +kernel
  rw [hj] at hb
  simp only [decide_eq_true_eq] at hb
  exact ⟨⟨j', hj, hb.1, .inr ⟨"stationery", by decide, hb.2⟩⟩, 1, .inl ⟨.inl rfl, rfl⟩, by decide⟩

example : ∃ j', finalize defaultPipelines pdf 7 exampleJob = .ok (none, j') ∧ j'.params.format = .PWG ∧ Room j'.params := by
  obtain ⟨j', hj⟩ := finalized_ok (pl := defaultPipelines) (input := pdf) (pages := 7) (j := exampleJob) (by decide +kernel)
  have hb : (match finalize defaultPipelines pdf 7 exampleJob with
    | .ok (none, j') => decide (j'.params.format = .PWG ∧ j'.params.widthPx < 2 ^ 32 ∧ j'.params.heightPx < 2 ^ 32 ∧
        Raster.Spec.rowBytes j'.params.colorMode j'.params.widthPx < 2 ^ 32 ∧
        (j'.params.hwResW < 2 ^ 32 ∧ j'.params.hwResH < 2 ^ 32) ∧ (j'.params.widthPt < 2 ^ 32 ∧ j'.params.heightPt < 2 ^ 32) ∧
        (j'.params.mediaType.length ≤ 64 ∧ ∀ b ∈ j'.params.mediaType, b ≠ 0) ∧
        (j'.params.paperSizeName.length ≤ 64 ∧ ∀ b ∈ j'.params.paperSizeName, b ≠ 0))
    | _ => false) = true := by decide +kernel
  rw [hj] at hb
  simp only [decide_eq_true_eq] at hb
  obtain ⟨h1, h2, h3, h4, h5, h6, h7, h8⟩ := hb
  exact ⟨j', hj, h1, h2, h3, h4, h5, h6, h7, h8⟩

/-- C126 is false of the code: a media type that the printer has and URF has not is accepted, and then no page can be written. -/
theorem C126_false : ¬ C126_full := by
  intro hfull
  obtain ⟨j', hj⟩ := finalized_ok (pl := defaultPipelines) (input := pdf) (pages := 1)
    (j := typedJob (ascii "stationery-lightweight")) (by decide +kernel)
  have hb : (match finalize defaultPipelines pdf 1 (typedJob (ascii "stationery-lightweight")) with
    | .ok (none, j') => decide (j'.params.format = .URF)
    | _ => false) = true := by decide +kernel
  rw [hj] at hb
  simp only [decide_eq_true_eq] at hb
  have hoff : AsksForOffered (typedJob (ascii "stationery-lightweight")) (ascii "stationery-lightweight") := by
    refine ⟨by decide +kernel, ?_⟩
    have h : KMap.get? (typedJob (ascii "stationery-lightweight")).printerAttrs (ascii "media-type-supported") =
      some (0x44, .set [.str (ascii "stationery"), .str (ascii "stationery-lightweight")]) := by decide +kernel
    rw [h]
    simp [Ipp.Spec.Declares]
  refine hfull _ _ _ _ _ _ _ rfl rfl hoff hj hb ?_
  obtain ⟨t, ht, _, hr⟩ := C126_urf_partial _ _ _ _ _ hj hb ⟨1, .inl ⟨.inl rfl, rfl⟩⟩ (by decide)
  have ht' : (effectiveMember (ascii "media-type") (typedJob (ascii "stationery-lightweight")).printerAttrs
      (typedJob (ascii "stationery-lightweight")).jobAttrs).getD (.str []) = .str (ascii "stationery-lightweight") := by decide +kernel
  rw [ht'] at ht
  injection ht with ht
  refine hr (fun n hn => ?_)
  rw [← ht] at hn
  rcases hn with ⟨hn, _⟩ | ⟨s, hs, he⟩
  · exact absurd hn (by decide)
  · have hall : ∀ x ∈ Raster.Spec.urfMedia, ascii "stationery-lightweight" ≠ ascii x.1 := by decide +kernel
    exact hall _ hs he

end Verif.Job
