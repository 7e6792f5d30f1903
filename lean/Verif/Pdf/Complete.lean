import Verif.Pdf.Props

/-! # What success of `pdf_to_printable` means (C48) -/

namespace Verif.Pdf

open Raster

/-! ## From success to the events -/

theorem follow_success {taken : List Bytes → Bool} {r : Outcome (Option Failure)} {done : List Bytes} {evs : List Event} (hw : ∀ b, Event.write b false ∉ evs)
    (h : (Spec.follow taken r done evs).result = .ok none) : r = .ok none ∧ (Spec.follow taken r done evs).events = evs := by
  induction evs generalizing done with
  | nil => exact ⟨h, rfl⟩
  | cons e evs ih =>
    have hw' : ∀ b, Event.write b false ∉ evs := fun b hb => hw b (List.mem_cons_of_mem _ hb)
    cases e with
    | write b t =>
      cases t with
      | false => exact absurd List.mem_cons_self (hw b)
      | true =>
        simp only [Spec.follow] at h ⊢
        by_cases ht : taken (done ++ [b]) = true
        · rw [if_pos ht] at h ⊢
          obtain ⟨h1, h2⟩ := ih hw' h
          exact ⟨h1, by rw [h2]⟩
        · rw [if_neg ht] at h
          cases h
    | progress k n =>
      simp only [Spec.follow] at h ⊢
      obtain ⟨h1, h2⟩ := ih hw' h
      exact ⟨h1, by rw [h2]⟩

/-- Either all pages can be drawn and encoded, or there is a first that can not. -/
theorem pages_or_stop (lum : Luminosity) (lib : Library) (paper : Paper) (p : Params) (seq : List Nat) (k : Nat) (drawn : List Drawn) :
    (∃ bs, Spec.Pages lum lib paper p k drawn seq bs) ∨
    ∃ pre n post bs r, seq = pre ++ n :: post ∧ Spec.Pages lum lib paper p k drawn pre bs ∧
      PageFails lum lib paper p (k + pre.length) (drawn ++ pre.map (Spec.drawing lib paper p)) n r ∧ r ≠ .ok none := by
  induction seq generalizing k drawn with
  | nil => exact .inl ⟨[], .nil⟩
  | cons n rest ih =>
    have stop : ∀ r, PageFails lum lib paper p k drawn n r → r ≠ .ok none →
        ∃ pre n' post bs r, n :: rest = pre ++ n' :: post ∧ Spec.Pages lum lib paper p k drawn pre bs ∧
          PageFails lum lib paper p (k + pre.length) (drawn ++ pre.map (Spec.drawing lib paper p)) n' r ∧ r ≠ .ok none :=
      fun r h1 h2 => ⟨[], n, rest, [], r, rfl, .nil, by simpa using h1, h2⟩
    cases hf : lib.failed (drawn ++ [Spec.drawing lib paper p n]) with
    | true => exact .inr (stop _ (.inl ⟨hf, rfl⟩) (by intro h; cases h))
    | false =>
      cases hb : Spec.bytes lum lib paper p (k + 1) (drawn ++ [Spec.drawing lib paper p n]) n with
      | throws e => exact .inr (stop _ (.inr ⟨hf, .inl ⟨e, hb, rfl⟩⟩) (by intro h; cases h))
      | ub => exact .inr (stop _ (.inr ⟨hf, .inr (.inl ⟨hb, rfl⟩)⟩) (by intro h; cases h))
      | hang => exact .inr (stop _ (.inr ⟨hf, .inr (.inr ⟨hb, rfl⟩)⟩) (by intro h; cases h))
      | ok b =>
        rcases ih (k + 1) (drawn ++ [Spec.drawing lib paper p n]) with ⟨bs, h⟩ | ⟨pre, n', post, bs, r, h1, h2, h3, h4⟩
        · exact .inl ⟨b :: bs, .cons hf hb h⟩
        · refine .inr ⟨n :: pre, n', post, b :: bs, r, by rw [h1]; rfl, .cons hf hb h2, ?_, h4⟩
          rw [show k + (n :: pre).length = k + 1 + pre.length by simp; omega, List.map_cons, List.append_cons]
          exact h3

/-- **C48, success.** A call that reports success has opened the document, drawn and encoded every page of the sequence, and written all of it; every block was taken. -/
theorem C48_success {lum : Luminosity} {lib : Library} {taken : List Bytes → Bool} {paper : Paper} {p : Params}
    (h : (pdfToPrintable lum lib taken paper p).result = .ok none) :
    ∃ pages seq bs, lib.pages = some pages ∧ p.pageSequence pages = .ok seq ∧ Spec.Pages lum lib paper p 0 [] seq bs ∧
      (p.format = .URF → p.hwResW = p.hwResH) ∧ p.format ≠ .Invalid ∧
      (pdfToPrintable lum lib taken paper p).events = Spec.ideal (Spec.header p seq.length) seq.length bs
        (if p.format = .PWG ∨ p.format = .URF then [] else lib.finished (seq.map (Spec.drawing lib paper p))) := by
  by_cases hs : p.format = .URF ∧ p.hwResW ≠ p.hwResH
  · rw [(C48_refused lum lib taken paper p).1 hs.1 hs.2] at h; cases h
  have hs : p.format = .URF → p.hwResW = p.hwResH := fun h1 => Classical.byContradiction fun h2 => hs ⟨h1, h2⟩
  cases hp : lib.pages with
  | none => rw [(C48_refused lum lib taken paper p).2 hs hp] at h; cases h
  | some pages =>
    obtain ⟨seq, hseq⟩ := pageSequence_ok p pages
    have hf : p.format ≠ .Invalid := by
      intro hf
      unfold pdfToPrintable at h
      rw [if_neg (by rintro ⟨h1, h2⟩; exact h2 (hs h1))] at h
      simp only [hp, hseq, hf] at h
      cases h
    rcases pages_or_stop lum lib paper p seq 0 [] with ⟨bs, hb⟩ | ⟨pre, n, post, bs, r, rfl, h2, h3, h4⟩
    · refine ⟨pages, seq, bs, rfl, hseq, hb, hs, hf, ?_⟩
      rw [C48_stream hs hf hp hseq hb taken] at h ⊢
      exact (follow_success (ideal_true _ _ _ _) h).2
    · rw [C48_stop hs hf hp hseq h2 (by rw [Nat.zero_add, List.nil_append] at h3; exact h3) taken] at h
      exact absurd (follow_success (reports_true _ _ _) h).1 h4

/-! ## From success to what is read -/

theorem seti_length {α : Type} {l l' : List α} {i : Nat} {x : α} (h : seti l i x = .ok l') : l'.length = l.length := by
  unfold seti at h
  split at h
  · cases h; simp
  · cases h

theorem ditherPixel_length {plus : Rgb → Int → Int} {black : Bool} {data : List Rgb} {a b col : Nat} {s s' : Dither} (h : ditherPixel plus black data a b col s = .ok s') :
    s'.tmp.length = s.tmp.length := by
  unfold ditherPixel at h
  obtain ⟨_, _, h⟩ := Outcome.bind_eq_ok.1 h
  obtain ⟨_, _, h⟩ := Outcome.bind_eq_ok.1 h
  obtain ⟨_, _, h⟩ := Outcome.bind_eq_ok.1 h
  obtain ⟨_, _, h⟩ := Outcome.bind_eq_ok.1 h
  obtain ⟨_, _, h⟩ := Outcome.bind_eq_ok.1 h
  obtain ⟨_, _, h⟩ := Outcome.bind_eq_ok.1 h
  obtain ⟨_, _, h⟩ := Outcome.bind_eq_ok.1 h
  obtain ⟨_, _, h⟩ := Outcome.bind_eq_ok.1 h
  obtain ⟨_, _, h⟩ := Outcome.bind_eq_ok.1 h
  obtain ⟨_, _, h⟩ := Outcome.bind_eq_ok.1 h
  obtain ⟨_, _, h⟩ := Outcome.bind_eq_ok.1 h
  split at h
  · obtain ⟨_, _, h⟩ := Outcome.bind_eq_ok.1 h
    obtain ⟨tmp, ht, h⟩ := Outcome.bind_eq_ok.1 h
    cases h
    exact seti_length ht
  · cases h; rfl

theorem ditherCols_length {plus : Rgb → Int → Int} {black : Bool} {data : List Rgb} {a b n col : Nat} {s s' : Dither} (h : ditherCols plus black data a b n col s = .ok s') :
    s'.tmp.length = s.tmp.length := by
  induction n generalizing col s with
  | zero => cases h; rfl
  | succ n ih =>
    obtain ⟨s1, h1, h⟩ := Outcome.bind_eq_ok.1 h
    rw [ih h, ditherPixel_length h1]

theorem ditherLines_length {plus : Rgb → Int → Int} {black : Bool} {data : List Rgb} {w wb n line : Nat} {s s' : Dither} (h : ditherLines plus black data w wb n line s = .ok s') :
    s'.tmp.length = s.tmp.length := by
  induction n generalizing line s with
  | zero => cases h; rfl
  | succ n ih =>
    obtain ⟨s1, h1, h⟩ := Outcome.bind_eq_ok.1 h
    rw [ih h, ditherCols_length h1]

/-- A bitmap that is made has the right size. -/
theorem copy_length {lum : Luminosity} {p : Params} {img : List Rgb} (hd : img.length = p.widthPx * p.heightPx) {bmp : Bytes} (h : copyRasterBuffer lum p img = .ok bmp) :
    bmp.length = p.heightPx * Raster.Spec.rowBytes p.colorMode p.widthPx ∧ Raster.Spec.bitsPerColor p.colorMode ≤ 8 := by
  have bytes : ∀ (f : Rgb → Bytes) (n : Nat), (∀ q, (f q).length = n) → Raster.Spec.bitsPerPixel p.colorMode = 8 * n →
      eachPixel img (p.widthPx * p.heightPx) f = .ok bmp → bmp.length = p.heightPx * Raster.Spec.rowBytes p.colorMode p.widthPx := by
    intro f n hf hbits he
    obtain ⟨bmp', h1, h2⟩ := eachPixel_length hd hf
    rw [h1] at he; cases he
    have : Raster.Spec.rowBytes p.colorMode p.widthPx = p.widthPx * n := by
      unfold Raster.Spec.rowBytes
      rw [hbits, show p.widthPx * (8 * n) = 8 * (p.widthPx * n) by rw [Nat.mul_left_comm]]
      omega
    rw [h2, this, Nat.mul_assoc, Nat.mul_left_comm]
  have bits : p.colorMode = .Gray1 ∨ p.colorMode = .Black1 → bmp.length = p.heightPx * Raster.Spec.rowBytes p.colorMode p.widthPx := by
    intro hm
    have h : (p.widthBytes.bind fun wBytes => (ditherLines lum.plus p.isBlack img p.widthPx wBytes p.heightPx 0
        (ditherStart p.isBlack p.widthPx (wBytes * p.heightPx))).bind fun s => .ok s.tmp) = .ok bmp := by
      unfold copyRasterBuffer at h
      rcases hm with hm | hm <;> simp only [hm] at h <;> exact h
    obtain ⟨wb, h1, h⟩ := Outcome.bind_eq_ok.1 h
    obtain ⟨s, h2, h⟩ := Outcome.bind_eq_ok.1 h
    cases h
    rw [ditherLines_length h2]
    have hw : wb = Raster.Spec.rowBytes p.colorMode p.widthPx := by
      have := widthBytes_eq p
      rw [h1] at this
      exact Outcome.ok.inj this
    simp only [ditherStart, List.length_replicate, hw]
    rw [Nat.mul_comm]
  cases hm : p.colorMode with
  | sRGB24 => refine ⟨?_, by decide⟩; simp only [copyRasterBuffer, hm] at h; rw [hm] at bytes; exact bytes _ 3 (fun _ => rfl) rfl h
  | CMYK32 => refine ⟨?_, by decide⟩; simp only [copyRasterBuffer, hm] at h; rw [hm] at bytes; exact bytes _ 4 (fun _ => rfl) rfl h
  | Gray8 => refine ⟨?_, by decide⟩; simp only [copyRasterBuffer, hm] at h; rw [hm] at bytes; exact bytes _ 1 (fun _ => rfl) rfl h
  | Black8 => refine ⟨?_, by decide⟩; simp only [copyRasterBuffer, hm] at h; rw [hm] at bytes; exact bytes _ 1 (fun _ => rfl) rfl h
  | Gray1 => refine ⟨?_, by decide⟩; rw [hm] at bits; exact bits (.inl rfl)
  | Black1 => refine ⟨?_, by decide⟩; rw [hm] at bits; exact bits (.inr rfl)
  | sRGB48 => simp only [copyRasterBuffer, hm] at h; cases h
  | Gray16 => simp only [copyRasterBuffer, hm] at h; cases h

/-- The bitmaps behind the pages that were encoded. -/
theorem encode_of_pages {lum : Luminosity} {lib : Library} {paper : Paper} {p : Params} (hr : p.format = .PWG ∨ p.format = .URF) {seq : List Nat} {k : Nat} {drawn : List Drawn}
    {bs : List Bytes} (h : Spec.Pages lum lib paper p k drawn seq bs) :
    ∃ bmps, All2 (fun n bmp => copyRasterBuffer lum p (Spec.picture lib paper p n) = .ok bmp) seq bmps ∧ encodePages (numbered p k bmps) = .ok bs.flatten ∧
      ∀ bmp ∈ bmps, ∃ j b, bmpToPwg p j bmp = .ok b := by
  induction h with
  | nil => exact ⟨[], .nil, rfl, by simp⟩
  | @cons k drawn n rest b bs _ hb _ ih =>
    obtain ⟨bmps, h1, h2, h3⟩ := ih
    have hb : (copyRasterBuffer lum p (Spec.picture lib paper p n)).bind (bmpToPwg p (k + 1)) = .ok b := by
      unfold Spec.bytes at hb
      rcases hr with hr | hr <;> simp only [hr] at hb <;> exact hb
    obtain ⟨bmp, h4, h5⟩ := Outcome.bind_eq_ok.1 hb
    refine ⟨bmp :: bmps, .cons h4 h1, ?_, ?_⟩
    · simp only [numbered, encodePages, h5, h2, Outcome.bind_ok, Outcome.pure_eq, List.flatten_cons]
    · intro c hc
      rcases List.mem_cons.1 hc with rfl | hc
      · exact ⟨_, _, h5⟩
      · exact h3 c hc

theorem all2_mem_right {α β : Type} {R : α → β → Prop} {as : List α} {bs : List β} (h : All2 R as bs) {b : β} (hb : b ∈ bs) : ∃ a, R a b := by
  induction h with
  | nil => cases hb
  | cons h _ ih =>
    rcases List.mem_cons.1 hb with rfl | hb
    · exact ⟨_, h⟩
    · exact ih hb

/-- **C48, success, PWG.** A document whose making reports success is a PWG raster file with the pages of the sequence, each as it was drawn. -/
theorem C48_success_pwg {lum : Luminosity} {lib : Library} {paper : Paper} {p : Params} (hf : p.format = .PWG) (hfit : Raster.Spec.Fits p)
    (hdraw : ∀ n sc img, (lib.draw n sc img).length = img.length) {taken : List Bytes → Bool} (h : (pdfToPrintable lum lib taken paper p).result = .ok none) :
    ∃ pages seq bmps outs, lib.pages = some pages ∧ p.pageSequence pages = .ok seq ∧
      All2 (fun n bmp => copyRasterBuffer lum p (Spec.picture lib paper p n) = .ok bmp) seq bmps ∧
      readRaster (blocks (pdfToPrintable lum lib taken paper p).events).flatten = .ok (.pwg outs) ∧ All2 ShowsPwg (numbered p 0 bmps) outs ∧
      Raster.Spec.PwgDocument (numbered p 0 bmps) (blocks (pdfToPrintable lum lib taken paper p).events).flatten := by
  obtain ⟨pages, seq, bs, h1, h2, h3, _, _, hev⟩ := C48_success h
  obtain ⟨bmps, h4, h5, _⟩ := encode_of_pages (.inl hf) h3
  have hlen : ∀ bmp ∈ bmps, bmp.length = p.heightPx * Raster.Spec.rowBytes p.colorMode p.widthPx ∧ Raster.Spec.bitsPerColor p.colorMode ≤ 8 := by
    intro bmp hb
    obtain ⟨n, hn⟩ := all2_mem_right h4 hb
    exact copy_length (by cases n <;> simp [Spec.picture, Spec.white, hdraw]) hn
  obtain ⟨enc, outs, h6, h7, h8⟩ := C02_pwg_document (numbered p 0 bmps)
    (numbered_mem (fun bmp hm k => ⟨by rw [hf]; decide, hfit, (hlen bmp hm).2, (hlen bmp hm).1⟩) 0)
  rw [h5] at h6; cases h6
  obtain ⟨enc', d1, d2⟩ := C99_pwg (numbered p 0 bmps) (numbered_mem (fun bmp hm k => ⟨by rw [hf]; decide, hfit, (hlen bmp hm).1⟩) 0)
  rw [h5] at d1; cases d1
  have : Spec.header p seq.length = pwgFileHdr := by unfold Spec.header; rw [hf]; rfl
  refine ⟨pages, seq, bmps, outs, h1, h2, h4, ?_, h8, ?_⟩
  · rw [hev, blocks_ideal, if_pos (.inl hf), List.append_nil, this, h7]
  · rw [hev, blocks_ideal, if_pos (.inl hf), List.append_nil, this]; exact d2

/-- **C48, success, URF.** Likewise. -/
theorem C48_success_urf {lum : Luminosity} {lib : Library} {paper : Paper} {p : Params} (hf : p.format = .URF) (hfit : Raster.Spec.Fits p)
    (hdraw : ∀ n sc img, (lib.draw n sc img).length = img.length) {taken : List Bytes → Bool} (h : (pdfToPrintable lum lib taken paper p).result = .ok none) :
    ∃ pages seq, lib.pages = some pages ∧ p.pageSequence pages = .ok seq ∧ (seq.length < 2 ^ 32 → ∃ bmps outs,
      All2 (fun n bmp => copyRasterBuffer lum p (Spec.picture lib paper p n) = .ok bmp) seq bmps ∧
      readRaster (blocks (pdfToPrintable lum lib taken paper p).events).flatten = .ok (.urf seq.length outs) ∧ All2 ShowsUrf (numbered p 0 bmps) outs ∧
      Raster.Spec.UrfDocument seq.length (numbered p 0 bmps) (blocks (pdfToPrintable lum lib taken paper p).events).flatten) := by
  obtain ⟨pages, seq, bs, h1, h2, h3, _, _, hev⟩ := C48_success h
  refine ⟨pages, seq, h1, h2, fun hn => ?_⟩
  obtain ⟨bmps, h4, h5, henc⟩ := encode_of_pages (.inr hf) h3
  have hlen : ∀ bmp ∈ bmps, bmp.length = p.heightPx * Raster.Spec.rowBytes p.colorMode p.widthPx ∧ Raster.Spec.UrfAble p := by
    intro bmp hb
    obtain ⟨n, hn⟩ := all2_mem_right h4 hb
    have hl := (copy_length (by cases n <;> simp [Spec.picture, Spec.white, hdraw]) hn).1
    refine ⟨hl, Classical.byContradiction fun hu => ?_⟩
    obtain ⟨j, b, hj⟩ := henc bmp hb
    obtain ⟨e, he⟩ := (C11_urf_expressible p j bmp hfit hf hl).2 hu
    rw [he] at hj; cases hj
  obtain ⟨enc, outs, h6, h7, h8⟩ := C03_urf_document seq.length hn (numbered p 0 bmps)
    (numbered_mem (fun bmp hm k => ⟨hf, (hlen bmp hm).2, hfit, (hlen bmp hm).1⟩) 0)
  rw [h5] at h6; cases h6
  obtain ⟨enc', d1, d2⟩ := C99_urf seq.length hn (numbered p 0 bmps) (numbered_mem (fun bmp hm k => ⟨hf, (hlen bmp hm).2, hfit, (hlen bmp hm).1⟩) 0)
  rw [h5] at d1; cases d1
  have : Spec.header p seq.length = urfFileHdr seq.length := by unfold Spec.header urfFileHdr; rw [hf]; simp [be8]
  refine ⟨bmps, outs, h4, ?_, h8, ?_⟩
  · rw [hev, blocks_ideal, if_pos (.inr hf), List.append_nil, this, h7]
  · rw [hev, blocks_ideal, if_pos (.inr hf), List.append_nil, this]; exact d2

/-- The hypotheses of `C48_success_pwg` and `C48_success_urf` are met, for eight pages. -/
example : exPage.format = .PWG ∧ Raster.Spec.Fits exPage ∧ (∀ n sc img, (exLibrary.draw n sc img).length = img.length) ∧
    (pdfToPrintable codeLuminosity exLibrary (fun _ => true) {} exPage).result = .ok none ∧
    (pdfToPrintable codeLuminosity exLibrary (fun _ => true) {} { exPage with format := .URF }).result = .ok none ∧
    (blocks (pdfToPrintable codeLuminosity exLibrary (fun _ => true) {} exPage).events).length = 8 :=
  ⟨rfl, ⟨by decide, by decide, by decide, by decide, by decide, by decide, by decide, by decide, by decide, by decide +kernel⟩,
    fun _ _ _ => List.length_map .., by decide +kernel, by decide +kernel, by decide +kernel⟩

end Verif.Pdf
