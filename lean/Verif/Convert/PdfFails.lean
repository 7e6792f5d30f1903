import Verif.Convert.PdfProps
import Verif.Pdf.Complete

/-!
# C78 for documents that can not be opened or drawn
-/

namespace Verif.Convert

open Tools Tools.Spec Client Client.Spec Raster Pdf
open Verif.Convert.Spec

namespace Spec

/-- cairo draws `pre` without failing, and fails with the next page, `n`. -/
def FailsAfter (doc : Library) (paper : Paper) (p : Params) (pre : List Nat) (n : Nat) : Prop :=
  (∀ k, k < pre.length → doc.failed ((pre.take (k + 1)).map (Pdf.Spec.drawing doc paper p)) = false) ∧
  doc.failed ((pre ++ [n]).map (Pdf.Spec.drawing doc paper p)) = true

end Spec

/-- Bytes for pages that are drawn without failing -/
theorem pages_until {lum : Luminosity} {lib : Library} {paper : Paper} {p : Params} (hr : isRaster p = true) {seq : List Nat} {bmps : List Bytes}
    (h : All2 (fun n bmp => copyRasterBuffer lum p (Pdf.Spec.picture lib paper p n) = .ok bmp) seq bmps) (k : Nat) (drawn : List Drawn)
    (hf : ∀ i, i < seq.length → lib.failed (drawn ++ (seq.take (i + 1)).map (Pdf.Spec.drawing lib paper p)) = false) {enc : Bytes}
    (he : encodePages (numbered p k bmps) = .ok enc) : ∃ bs, Pdf.Spec.Pages lum lib paper p k drawn seq bs ∧ bs.flatten = enc := by
  induction h generalizing k drawn enc with
  | nil => cases he; exact ⟨[], .nil, rfl⟩
  | @cons n bmp seq bmps h1 _ ih =>
    simp only [numbered, encodePages] at he
    obtain ⟨a, ha, he⟩ := Outcome.bind_eq_ok.1 he
    obtain ⟨b, hb, he⟩ := Outcome.bind_eq_ok.1 he
    cases he
    obtain ⟨bs, h2, h3⟩ := ih (k + 1) (drawn ++ [Pdf.Spec.drawing lib paper p n])
      (fun i hi => by
        have := hf (i + 1) (by simp; omega)
        rw [List.take_succ_cons, List.map_cons] at this
        rw [List.append_assoc]
        exact this) hb
    refine ⟨a :: bs, .cons (by simpa using hf 0 (by simp)) ?_ h2, by rw [List.flatten_cons, h3]⟩
    rw [← pageBytes_eq]
    unfold pageBytes
    rw [if_pos hr, image_eq, h1]
    exact ha

/-- C78 when cairo fails: the exit code is 1. The output is empty if it fails with the first page; otherwise it has the header and all pages before the one that
failed, each complete, and is read as a document of these pages (the header of URF announces them all). -/
theorem C78_stops {lum : Luminosity} (hl : Pdf.Spec.Sums lum.plus) (lib : Bytes → Bool → Library) (d : Disk) {args : List Bytes} {uses : List Use}
    {inFile outFile : Bytes} (ha : Accounts pdfOpts pdfPos args uses [inFile, outFile]) (hh : lastUse uses [ascii "-h", ascii "--help"] = none)
    (hlarge : ¬ PdfTooLarge uses) (hr : ¬ PdfRefused uses outFile)
    {doc : Library} (hdoc : doc = lib inFile (lastUse uses [ascii "-aa", ascii "--antialias"]).isSome)
    {pages : Nat} (hp : doc.pages = some pages) (hdraw : ∀ n sc img, (doc.draw n sc img).length = img.length) (hroom : d.room outFile = none) :
    ∃ paper p seq, PdfJob uses outFile paper p ∧ p.pageSequence pages = .ok seq ∧
      ∀ pre n post, seq = pre ++ n :: post → FailsAfter doc paper p pre n →
        Raster.Spec.Fits p → p.heightPx ≤ 38347922 → seq.length < 2 ^ 32 → (p.format = .PWG ∨ (p.format = .URF ∧ p.hwResW = p.hwResH)) →
        ∃ bmps outs file, pdfMain lum lib d args = { out := .ok 1, file := some (outFile, file) } ∧
          All2 (fun n bmp => copyRasterBuffer lum p (Pdf.Spec.picture doc paper p n) = .ok bmp) pre bmps ∧
          (pre = [] → file = []) ∧
          (pre ≠ [] → p.format = .PWG →
            readRaster file = .ok (.pwg outs) ∧ All2 ShowsPwg (numbered p 0 bmps) outs ∧ Raster.Spec.PwgDocument (numbered p 0 bmps) file) ∧
          (pre ≠ [] → p.format = .URF →
            readRaster file = .ok (.urf seq.length outs) ∧ All2 ShowsUrf (numbered p 0 bmps) outs ∧
            Raster.Spec.UrfDocument seq.length (numbered p 0 bmps) file) := by
  rcases C78_converts_partial lum lib d ha hh with ⟨h, _⟩ | ⟨_, ⟨h, _⟩ | ⟨_, paper, p, h2, h3⟩⟩
  · exact absurd h hlarge
  · exact absurd h hr
  obtain ⟨seq, hseq⟩ := pageSequence_ok p pages
  refine ⟨paper, p, seq, h2, hseq, ?_⟩
  rintro pre n post rfl ⟨hgood, hbad⟩ hfit hhei hlen hfm
  obtain ⟨h4, _, h5, _⟩ := h3 _ rfl
  rw [← hdoc] at h4 h5
  have hk : ∀ x, d.kept outFile x = x := by intro x; unfold Disk.kept; rw [hroom]
  rw [hk] at h4
  have hb := pdfColor_bits h2.color
  have done : ∀ {x : Done} {f : Option (Bytes × Bytes)}, x.out = .ok 1 → x.file = f → x = { out := .ok 1, file := f } := by
    rintro ⟨o, f⟩ g rfl rfl; rfl
  obtain ⟨bmps, hb1, hb2⟩ := bitmaps hl (lib := doc) (paper := paper) hb hhei hdraw pre
  have run : ∀ {enc}, isRaster p = true → (p.format = .URF → p.hwResW = p.hwResH) → p.format ≠ .Invalid → encodePages (numbered p 0 bmps) = .ok enc →
      (pdfToPrintable lum doc (fun _ => true) paper p).result = .ok (some .cairo) ∧
      (blocks (pdfToPrintable lum doc (fun _ => true) paper p).events).flatten =
        if pre = [] then [] else Pdf.Spec.header p (pre ++ n :: post).length ++ enc := by
    intro enc hras hs hf henc
    obtain ⟨bs, g1, g2⟩ := pages_until hras hb1 0 [] (by simpa using hgood) henc
    have hrun := C48_stop hs hf hp hseq g1 (.inl ⟨by simpa using hbad, rfl⟩) (fun _ => true)
    rw [follow_all (fun _ => rfl) _ _ _ (reports_true _ _ _)] at hrun
    rw [hrun]
    refine ⟨rfl, ?_⟩
    rw [blocks_reports]
    have hbl := Pdf.pages_length g1
    cases bs with
    | nil =>
      have : pre = [] := by cases pre; · rfl
                            · simp at hbl
      rw [if_pos this]; rfl
    | cons b bs =>
      have : pre ≠ [] := by rintro rfl; simp at hbl
      rw [if_neg this, ← g2]
      simp [Pdf.Spec.withHeader]
  rcases hfm with hf | ⟨hf, hs⟩
  · obtain ⟨enc, outs, e1, e2, e3⟩ := C02_pwg_document (numbered p 0 bmps)
      (numbered_mem (fun bmp hm k => ⟨by rw [hf]; decide, hfit, hb, hb2 bmp hm⟩) 0)
    obtain ⟨enc', d1, d2⟩ := C99_pwg (numbered p 0 bmps) (numbered_mem (fun bmp hm k => ⟨by rw [hf]; decide, hfit, hb2 bmp hm⟩) 0)
    rw [e1] at d1; cases d1
    obtain ⟨r1, r2⟩ := run (by simp [isRaster, hf]) (by rw [hf]; intro h; cases h) (by rw [hf]; decide) e1
    refine ⟨bmps, outs, _, done (h5 _ r1) h4, hb1, fun h => by rw [r2, if_pos h], fun h _ => ?_, fun _ h => (by rw [hf] at h; cases h)⟩
    have hh : Pdf.Spec.header p (pre ++ n :: post).length = pwgFileHdr := by unfold Pdf.Spec.header; rw [hf]; rfl
    rw [r2, if_neg h, hh]
    exact ⟨e2, e3, d2⟩
  · have hu := urfAble_of h2 hr hf hs
    obtain ⟨enc, outs, e1, e2, e3⟩ := C03_urf_document (pre ++ n :: post).length hlen (numbered p 0 bmps)
      (numbered_mem (fun bmp hm k => ⟨hf, hu, hfit, hb2 bmp hm⟩) 0)
    obtain ⟨enc', d1, d2⟩ := C99_urf (pre ++ n :: post).length hlen (numbered p 0 bmps) (numbered_mem (fun bmp hm k => ⟨hf, hu, hfit, hb2 bmp hm⟩) 0)
    rw [e1] at d1; cases d1
    obtain ⟨r1, r2⟩ := run (by simp [isRaster, hf]) (fun _ => hs) (by rw [hf]; decide) e1
    refine ⟨bmps, outs, _, done (h5 _ r1) h4, hb1, fun h => by rw [r2, if_pos h], fun _ h => (by rw [hf] at h; cases h), fun h _ => ?_⟩
    have hh : Pdf.Spec.header p (pre ++ n :: post).length = urfFileHdr (pre ++ n :: post).length := by
      unfold Pdf.Spec.header urfFileHdr; rw [hf]; simp [be8]
    rw [r2, if_neg h, hh]
    exact ⟨e2, e3, d2⟩

/-- C78 for a document that can not be opened: the exit code is 1, and the output is empty. -/
theorem C78_unopened (lum : Luminosity) (lib : Bytes → Bool → Library) (d : Disk) {args : List Bytes} {uses : List Use}
    {inFile outFile : Bytes} (ha : Accounts pdfOpts pdfPos args uses [inFile, outFile]) (hh : lastUse uses [ascii "-h", ascii "--help"] = none)
    (hlarge : ¬ PdfTooLarge uses) (hr : ¬ PdfRefused uses outFile)
    (hdoc : (lib inFile (lastUse uses [ascii "-aa", ascii "--antialias"]).isSome).pages = none) :
    pdfMain lum lib d args = { out := .ok 1, file := some (outFile, []) } := by
  rcases C78_converts_partial lum lib d ha hh with ⟨h, _⟩ | ⟨_, ⟨h, _⟩ | ⟨_, paper, p, h2, h3⟩⟩
  · exact absurd h hlarge
  · exact absurd h hr
  obtain ⟨h4, _, h5, _⟩ := h3 _ rfl
  have kept : d.kept outFile [] = [] := by unfold Disk.kept; split <;> simp
  have run : ∃ e, pdfToPrintable lum (lib inFile (lastUse uses [ascii "-aa", ascii "--antialias"]).isSome) (fun _ => true) paper p = ⟨[], .ok (some e)⟩ := by
    obtain ⟨c1, c2⟩ := C48_refused lum (lib inFile (lastUse uses [ascii "-aa", ascii "--antialias"]).isSome) (fun _ => true) paper p
    by_cases hs : p.format = .URF → p.hwResW = p.hwResH
    · exact ⟨_, c2 hs hdoc⟩
    · simp only [Classical.not_imp] at hs
      exact ⟨_, c1 hs.1 hs.2⟩
  obtain ⟨e, run⟩ := run
  rw [run] at h4 h5
  have h6 := h5 e rfl
  have h7 : (pdfMain lum lib d args).file = some (outFile, []) := by rw [h4]; simp [blocks, kept]
  revert h6 h7
  cases pdfMain lum lib d args
  rintro rfl rfl
  rfl

/-- C78: an exit code of 0 without a use of the help means that the document was opened, and every page of the sequence was drawn, encoded and given to the
output in full. -/
theorem C78_success (lum : Luminosity) (lib : Bytes → Bool → Library) (d : Disk) {args : List Bytes} {uses : List Use}
    {inFile outFile : Bytes} (ha : Accounts pdfOpts pdfPos args uses [inFile, outFile]) (hh : lastUse uses [ascii "-h", ascii "--help"] = none)
    (h0 : (pdfMain lum lib d args).out = .ok 0) {doc : Library} (hdoc : doc = lib inFile (lastUse uses [ascii "-aa", ascii "--antialias"]).isSome) :
    ∃ paper p pages seq bs, PdfJob uses outFile paper p ∧ doc.pages = some pages ∧ p.pageSequence pages = .ok seq ∧
      Pdf.Spec.Pages lum doc paper p 0 [] seq bs ∧
      (pdfMain lum lib d args).file = some (outFile, d.kept outFile (Pdf.Spec.header p seq.length ++ bs.flatten ++
        (if p.format = .PWG ∨ p.format = .URF then [] else doc.finished (seq.map (Pdf.Spec.drawing doc paper p))))) := by
  rcases C78_converts_partial lum lib d ha hh with ⟨_, h⟩ | ⟨_, ⟨_, h⟩ | ⟨_, paper, p, h2, h3⟩⟩
  · rw [h] at h0; cases h0
  · rw [h] at h0; cases h0
  have h3' := h3 _ rfl
  rw [← hdoc] at h3'
  have hres : (pdfToPrintable lum doc (fun _ => true) paper p).result = .ok none := by
    cases hr : (pdfToPrintable lum doc (fun _ => true) paper p).result with
    | ok e =>
      cases e with
      | none => rfl
      | some e => rw [h3'.2.2.1 e hr] at h0; cases h0
    | throws e => rw [h3'.2.2.2.1 e hr] at h0; cases h0
    | ub => rw [h3'.2.2.2.2.1 hr] at h0; cases h0
    | hang => rw [h3'.2.2.2.2.2 hr] at h0; cases h0
  obtain ⟨pages, seq, bs, g1, g2, g3, _, _, g6⟩ := C48_success hres
  exact ⟨paper, p, pages, seq, bs, h2, g1, g2, g3, by rw [h3'.1, g6, blocks_ideal]⟩

/-- a document of three pages, the last of which can not be drawn -/
def brokenLibrary : Library :=
  { pages := some 3, size := fun _ => (595, 842), draw := fun _ _ img => img, failed := fun l => decide (l.length = 3), shown := fun _ => [1], finished := fun _ => [2] }

/-- The hypotheses are met: cairo fails with the third page, after two; and with the first page for a document that fails at once. -/
example (paper : Paper) (p : Params) : FailsAfter brokenLibrary paper p [1, 2] 3 ∧
    FailsAfter { brokenLibrary with failed := fun _ => true } paper p [] 1 ∧ (∀ n sc img, (brokenLibrary.draw n sc img).length = img.length) := by
  refine ⟨⟨fun k hk => ?_, rfl⟩, ⟨fun k hk => absurd hk (by simp), rfl⟩, fun _ _ _ => rfl⟩
  have : k = 0 ∨ k = 1 := by simp at hk; omega
  rcases this with rfl | rfl <;> rfl

/-- A run with exit code 1 and the pages before the one that failed, and one with exit code 0. -/
example : pdfMain codeLuminosity (fun _ _ => brokenLibrary) ⟨fun _ => none, fun _ => none⟩ [ascii "a.pdf", ascii "b.pdf"] =
      { out := .ok 1, file := some (ascii "b.pdf", [1, 1]) } ∧
    pdfMain codeLuminosity (fun _ _ => brokenLibrary) ⟨fun _ => none, fun _ => none⟩ [ascii "-p", ascii "1-2", ascii "a.pdf", ascii "b.pdf"] =
      { out := .ok 0, file := some (ascii "b.pdf", [1, 1, 2]) } := by
  decide +kernel

end Verif.Convert
