import Verif.Pdf.Props
import Verif.Pdf.PixelProps
import Verif.Raster.ToolChain

/-! # `pdf2printable` followed by `pwg2ppm` (C87), and CMYK pages of other programs (C88) -/

namespace Verif.Pdf

open Raster Raster.Spec

namespace Spec

/-- The bytes red, green and blue of each pixel. -/
def rgbBytes (img : List Rgb) : Bytes := (img.map (fun q => [UInt8.ofNat (rgb q).1, UInt8.ofNat (rgb q).2.1, UInt8.ofNat (rgb q).2.2])).flatten

/-- A picture of the page's size. -/
def pageOf (p : Params) (kind : PnmKind) (pixels : Bytes) : PnmPage :=
  { kind := kind, comments := [], width := p.widthPx, sep1 := [32], height := p.heightPx, sep2 := [10], last := 10, pixels := pixels }

end Spec

theorem rgbBytes_eq (img : List Rgb) : (img.map rgbOf).flatten = Spec.rgbBytes img := rfl

/-- The bitmap of a picture in color. -/
theorem color_bitmap {lum : Luminosity} {p : Params} (hm : p.colorMode = .sRGB24 ∨ p.colorMode = .CMYK32) {img : List Rgb} (hd : img.length = p.widthPx * p.heightPx)
    {bmp : Bytes} (h : copyRasterBuffer lum p img = .ok bmp) : (if colors p.colorMode = 4 then cmyk2rgb bmp else bmp) = Spec.rgbBytes img := by
  rcases hm with hm | hm
  · rw [if_neg (by rw [hm]; decide)]
    unfold copyRasterBuffer at h
    simp only [hm, eachPixel] at h
    rw [if_neg (by omega), List.take_of_length_le (by omega)] at h
    cases h; rfl
  · rw [if_pos (by rw [hm]; decide)]
    unfold copyRasterBuffer at h
    simp only [hm, eachPixel] at h
    rw [if_neg (by omega), List.take_of_length_le (by omega)] at h
    cases h
    clear hd hm
    induction img with
    | nil => rfl
    | cons q qs ih =>
      simp only [List.map_cons, List.flatten_cons]
      rw [cmyk2rgb_append, ih]; rfl

theorem numbered_all2 {p : Params} {R : Params × Nat × Bytes → PageOut → Prop} {bmps : List Bytes} {k : Nat} {outs : List PageOut} (h : All2 R (numbered p k bmps) outs) :
    All2 (fun bmp o => ∃ page, R (p, page, bmp) o) bmps outs := by
  induction bmps generalizing k outs with
  | nil => cases h; exact .nil
  | cons b bs ih => cases h with | cons h1 h2 => exact .cons ⟨_, h1⟩ (ih h2)

theorem all2_join {α β γ : Type} {R : α → β → Prop} {S : β → γ → Prop} {T : α → γ → Prop} (ht : ∀ a b c, R a b → S b c → T a c) {as : List α} {bs : List β} {cs : List γ}
    (h1 : All2 R as bs) (h2 : All2 S bs cs) : All2 T as cs := by
  induction h1 generalizing cs with
  | nil => cases h2; exact .nil
  | cons h _ ih => cases h2 with | cons h3 h4 => exact .cons (ht _ _ _ h h3) (ih h4)

theorem all2_map {α β γ : Type} {R : β → γ → Prop} {f : α → β} {as : List α} {cs : List γ} (h : All2 (fun a c => R (f a) c) as cs) : All2 R (as.map f) cs := by
  induction h with
  | nil => exact .nil
  | cons h _ ih => exact .cons h ih

/-- Pages that are read as they were written. -/
def Whole (p : Params) (bmp : Bytes) (o : PageOut) : Prop :=
  o.width = p.widthPx ∧ o.height = p.heightPx ∧ o.colors = colors p.colorMode ∧ o.bits = 8 ∧ o.bmp = bmp

/-- From the page sequence to the pages that are read. -/
theorem document_read {lum : Luminosity} (hl : Spec.Sums lum.plus) {lib : Library} {paper : Paper} {p : Params} (hf : p.format = .PWG ∨ p.format = .URF)
    (hu : p.format = .URF → UrfAble p) (hb : bitsPerColor p.colorMode = 8) (hfit : Fits p) (hh : p.heightPx ≤ 38347922) {pages : Nat} (hp : lib.pages = some pages)
    (hfail : ∀ d, lib.failed d = false) (hdraw : ∀ n sc img, (lib.draw n sc img).length = img.length) {taken : List Bytes → Bool} (ht : ∀ l, taken l = true)
    {seq : List Nat} (hseq : p.pageSequence pages = .ok seq) (hn : seq.length < 2 ^ 32) (hflip : ∀ k, ¬ Flipped p k) :
    ∃ bmps outs, All2 (fun n bmp => copyRasterBuffer lum p (Spec.picture lib paper p n) = .ok bmp) seq bmps ∧ All2 (Whole p) bmps outs ∧
      ∀ pre, pwg2ppm pre (blocks (pdfToPrintable lum lib taken paper p).events).flatten = .ok (some (pictureFiles pre 1 outs)) := by
  rcases hf with hf | hf
  · obtain ⟨seq', bmps, outs, h1, _, _, h2, h3, h4, _⟩ := C48_pwg_document hl (paper := paper) hf (by omega) hfit hh hp hfail hdraw ht
    rw [hseq] at h1; cases h1
    refine ⟨bmps, outs, h2, ?_, fun pre => ?_⟩
    · refine Raster.All2.imp_mem (numbered_all2 h4) ?_
      rintro bmp _ o _ ⟨page, g1, g2, g3, g4, _, g5⟩
      exact ⟨g1, g2, g3, by rw [g4]; exact hb, g5.same (hflip _)⟩
    · unfold pwg2ppm; rw [h3]; rfl
  · have hua := hu hf
    obtain ⟨bmps, outs, _, _, h2, h3, h4, _⟩ := C48_urf_document hl (paper := paper) hf (by omega) hua hfit hh hp hfail hdraw ht hseq hn
    have hbits : ∀ o ∈ outs, o.bits = 8 := by
      have h3 := h3
      unfold readRaster at h3
      split at h3
      · obtain ⟨_, _, h3⟩ := Outcome.bind_eq_ok.mp h3
        cases h3
      · split at h3
        · split at h3
          · cases h3
          · obtain ⟨⟨n, rest⟩, _, h3⟩ := Outcome.bind_eq_ok.mp h3
            obtain ⟨l, h5, h3⟩ := Outcome.bind_eq_ok.mp h3
            cases h3
            exact fun o ho => (readUrfPages_bits h5 o ho).1
        · cases h3
    refine ⟨bmps, outs, h2, ?_, fun pre => ?_⟩
    · refine Raster.All2.imp_mem (numbered_all2 h4) ?_
      rintro bmp _ o ho ⟨page, g1, g2, g3, g5⟩
      refine ⟨g1, g2, ?_, hbits o ho, g5.same (hflip _)⟩
      revert g3 hb
      show _ → o.colors * 8 = bitsPerPixel p.colorMode → _
      cases p.colorMode <;> simp [bitsPerPixel, colors, bitsPerColor] <;> omega
    · unfold pwg2ppm; rw [h3]; rfl

theorem picture_length {lib : Library} {paper : Paper} {p : Params} (hdraw : ∀ n sc img, (lib.draw n sc img).length = img.length) (n : Nat) :
    (Spec.picture lib paper p n).length = p.widthPx * p.heightPx := by
  cases n with
  | zero => simp [Spec.picture, Spec.white]
  | succ n => simp [Spec.picture, hdraw, Spec.white]

/-- **C87, in color.** For every document and page sequence, as long as cairo does not fail, every block is taken and no page is turned over: what `pdf2printable` writes in sRGB
or CMYK, PWG or URF, `pwg2ppm` shows as one picture per element of the page sequence, numbered in order, with exactly the red, green and blue that were drawn; white for a filler. -/
theorem C87_color_partial {lum : Luminosity} (hl : Spec.Sums lum.plus) {lib : Library} {paper : Paper} {p : Params} (hf : p.format = .PWG ∨ p.format = .URF)
    (hu : p.format = .URF → UrfAble p) (hm : p.colorMode = .sRGB24 ∨ p.colorMode = .CMYK32) (hfit : Fits p) (hh : p.heightPx ≤ 38347922) {pages : Nat}
    (hp : lib.pages = some pages) (hfail : ∀ d, lib.failed d = false) (hdraw : ∀ n sc img, (lib.draw n sc img).length = img.length) {taken : List Bytes → Bool}
    (ht : ∀ l, taken l = true) {seq : List Nat} (hseq : p.pageSequence pages = .ok seq) (hn : seq.length < 2 ^ 32) (hflip : ∀ k, ¬ Flipped p k) (pre : Bytes) :
    pwg2ppm pre (blocks (pdfToPrintable lum lib taken paper p).events).flatten =
      .ok (some (expectedFiles pre 1 (seq.map (fun n => Spec.pageOf p .ppm8 (Spec.rgbBytes (Spec.picture lib paper p n)))))) := by
  have hb : bitsPerColor p.colorMode = 8 := by rcases hm with h | h <;> rw [h] <;> rfl
  obtain ⟨bmps, outs, h1, h2, h3⟩ := document_read hl (paper := paper) hf hu hb hfit hh hp hfail hdraw ht hseq hn hflip
  rw [h3 pre]
  congr 2
  refine pictureFiles_expected pre _ outs (all2_map (all2_join ?_ h1 h2)) 1
  rintro n bmp o hc ⟨w1, w2, w3, w4, w5⟩
  have hpx := color_bitmap hm (picture_length hdraw n) hc
  unfold writePpm
  rw [w1, w2, w3, w4, w5]
  rcases hm with hm | hm
  · rw [hm] at hpx ⊢
    rw [if_neg (by decide)] at hpx
    simp [PnmPage.plain, PnmPage.bytes, Spec.pageOf, PnmKind.ext, PnmKind.magic, PnmKind.maxval, ascii, colors, hpx]
  · rw [hm] at hpx ⊢
    rw [if_pos (by decide)] at hpx
    simp [PnmPage.plain, PnmPage.bytes, Spec.pageOf, PnmKind.ext, PnmKind.magic, PnmKind.maxval, ascii, colors, hpx]

/-- **C87, in gray.** Likewise, each pixel with its luminosity, cut off to a whole number or one less. -/
theorem C87_gray_partial {lum : Luminosity} (hl : Spec.Sums lum.plus) (hr : Spec.Rounds lum) {lib : Library} {paper : Paper} {p : Params} (hf : p.format = .PWG ∨ p.format = .URF)
    (hu : p.format = .URF → UrfAble p) (hm : p.colorMode = .Gray8) (hfit : Fits p) (hh : p.heightPx ≤ 38347922) {pages : Nat}
    (hp : lib.pages = some pages) (hfail : ∀ d, lib.failed d = false) (hdraw : ∀ n sc img, (lib.draw n sc img).length = img.length) {taken : List Bytes → Bool}
    (ht : ∀ l, taken l = true) {seq : List Nat} (hseq : p.pageSequence pages = .ok seq) (hn : seq.length < 2 ^ 32) (hflip : ∀ k, ¬ Flipped p k) (pre : Bytes) :
    ∃ levels, pwg2ppm pre (blocks (pdfToPrintable lum lib taken paper p).events).flatten = .ok (some (expectedFiles pre 1 (levels.map (Spec.pageOf p .pgm8)))) ∧
      All2 (fun n l => l.length = p.widthPx * p.heightPx ∧ ∀ (i q : Nat) (b : UInt8), (Spec.picture lib paper p n)[i]? = some q → l[i]? = some b →
        1000 * b.toNat ≤ Spec.luma1000 q ∧ Spec.luma1000 q ≤ 1000 * b.toNat + 1000) seq levels := by
  obtain ⟨bmps, outs, h1, h2, h3⟩ := document_read hl (paper := paper) hf hu (by rw [hm]; rfl) hfit hh hp hfail hdraw ht hseq hn hflip
  refine ⟨bmps, ?_, ?_⟩
  · rw [h3 pre]
    congr 2
    refine pictureFiles_expected pre _ outs (all2_map (Raster.All2.imp_mem h2 ?_)) 1
    rintro bmp _ o _ ⟨w1, w2, w3, w4, w5⟩
    unfold writePpm
    rw [w1, w2, w3, w4, w5, hm]
    simp [PnmPage.plain, PnmPage.bytes, Spec.pageOf, PnmKind.ext, PnmKind.magic, PnmKind.maxval, ascii, colors]
  · refine Raster.All2.imp_mem h1 ?_
    intro n _ bmp _ hc
    obtain ⟨bmp', g1, g2, g3⟩ := C62_gray hr hm (picture_length (paper := paper) hdraw n)
    rw [hc] at g1; cases g1
    exact ⟨g2, g3⟩

/-- **C87, what happens to `Black8`.** The pictures of pages of 8-bit ink are negatives: `write_ppm` writes the amounts of ink as levels of gray. -/
theorem C87_negative {lum : Luminosity} (hl : Spec.Sums lum.plus) (hr : Spec.Rounds lum) {lib : Library} {paper : Paper} {p : Params} (hf : p.format = .PWG)
    (hm : p.colorMode = .Black8) (hfit : Fits p) (hh : p.heightPx ≤ 38347922) {pages : Nat}
    (hp : lib.pages = some pages) (hfail : ∀ d, lib.failed d = false) (hdraw : ∀ n sc img, (lib.draw n sc img).length = img.length) {taken : List Bytes → Bool}
    (ht : ∀ l, taken l = true) {seq : List Nat} (hseq : p.pageSequence pages = .ok seq) (hn : seq.length < 2 ^ 32) (hflip : ∀ k, ¬ Flipped p k) (pre : Bytes) :
    ∃ levels, pwg2ppm pre (blocks (pdfToPrintable lum lib taken paper p).events).flatten = .ok (some (expectedFiles pre 1 (levels.map (Spec.pageOf p .pgm8)))) ∧
      All2 (fun n l => l.length = p.widthPx * p.heightPx ∧ ∀ (i q : Nat) (b : UInt8), (Spec.picture lib paper p n)[i]? = some q → l[i]? = some b →
        1000 * b.toNat + Spec.luma1000 q ≤ 255000 ∧ 255000 ≤ 1000 * b.toNat + Spec.luma1000 q + 1000) seq levels := by
  obtain ⟨bmps, outs, h1, h2, h3⟩ := document_read hl (paper := paper) (.inl hf) (by rw [hf]; intro h; cases h) (by rw [hm]; rfl) hfit hh hp hfail hdraw ht hseq hn hflip
  refine ⟨bmps, ?_, ?_⟩
  · rw [h3 pre]
    congr 2
    refine pictureFiles_expected pre _ outs (all2_map (Raster.All2.imp_mem h2 ?_)) 1
    rintro bmp _ o _ ⟨w1, w2, w3, w4, w5⟩
    unfold writePpm
    rw [w1, w2, w3, w4, w5, hm]
    simp [PnmPage.plain, PnmPage.bytes, Spec.pageOf, PnmKind.ext, PnmKind.magic, PnmKind.maxval, ascii, colors]
  · refine Raster.All2.imp_mem h1 ?_
    intro n _ bmp _ hc
    obtain ⟨bmp', g1, g2, g3⟩ := C62_black hr hm (picture_length (paper := paper) hdraw n)
    rw [hc] at g1; cases g1
    exact ⟨g2, g3⟩

theorem bitAt_invert {bmp : Bytes} {i : Nat} (h : i < 8 * bmp.length) : bitAt (invert bmp) i = !bitAt bmp i := by
  unfold bitAt invert
  have h1 : i / 8 < bmp.length := by omega
  rw [List.getD_eq_getElem?_getD, List.getD_eq_getElem?_getD, List.getElem?_map, List.getElem?_eq_getElem h1]
  have hk : ∀ (b : Fin 256) (k : Fin 8), (~~~UInt8.ofNat b.val).toNat.testBit k.val = !(UInt8.ofNat b.val).toNat.testBit k.val := by decide +kernel
  have := hk ⟨bmp[i / 8].toNat, UInt8.toNat_lt _⟩ ⟨7 - i % 8, by omega⟩
  simpa using this

/-- **C87, bitmaps.** Pages of 1 bit per pixel are shown as bitmaps: with a mark on every pixel that was drawn black, and none on those that were drawn white or are beyond the end of a line,
in both kinds of 1-bit pages (in one of them, 1 is white). As C61 says, there is a line "255" before the pixels. -/
theorem C87_bitmap_partial {lum : Luminosity} (hl : Spec.Sums lum.plus) {lib : Library} {paper : Paper} {p : Params} (hf : p.format = .PWG)
    (hm : p.colorMode = .Gray1 ∨ p.colorMode = .Black1) (hfit : Fits p) (hh : p.heightPx ≤ 38347922) {pages : Nat}
    (hp : lib.pages = some pages) (hfail : ∀ d, lib.failed d = false) (hdraw : ∀ n sc img, (lib.draw n sc img).length = img.length) {taken : List Bytes → Bool}
    (ht : ∀ l, taken l = true) {seq : List Nat} (hseq : p.pageSequence pages = .ok seq) (hflip : ∀ k, ¬ Flipped p k) (pre : Bytes) :
    ∃ bits, pwg2ppm pre (blocks (pdfToPrintable lum lib taken paper p).events).flatten = .ok (some (expectedFiles pre 1 (bits.map (fun b => (Spec.pageOf p .pbm b).withLine)))) ∧
      All2 (fun n b => b.length = (p.widthPx + 7) / 8 * p.heightPx ∧
        (∀ line < p.heightPx, ∀ col < p.widthPx,
          ((Spec.picture lib paper p n)[line * p.widthPx + col]? = some 0xffffff → bitAt b (8 * ((p.widthPx + 7) / 8 * line) + col) = false) ∧
          ((Spec.picture lib paper p n)[line * p.widthPx + col]? = some 0 → bitAt b (8 * ((p.widthPx + 7) / 8 * line) + col) = true)) ∧
        (∀ line < p.heightPx, ∀ col, p.widthPx ≤ col → col < 8 * ((p.widthPx + 7) / 8) → bitAt b (8 * ((p.widthPx + 7) / 8 * line) + col) = false)) seq bits := by
  obtain ⟨seq', bmps, outs, h1, _, _, h2, h3, h4, _⟩ := C48_pwg_document hl (paper := paper) hf (by rcases hm with h | h <;> rw [h] <;> decide) hfit hh hp hfail hdraw ht
  rw [hseq] at h1; cases h1
  refine ⟨bmps.map (fun b => if p.colorMode = .Black1 then b else invert b), ?_, ?_⟩
  · unfold pwg2ppm
    rw [h3]
    simp only [Outcome.bind_ok, Outcome.pure_eq, List.map_map]
    congr 2
    refine pictureFiles_expected pre _ outs (all2_map (Raster.All2.imp_mem (numbered_all2 h4) ?_)) 1
    rintro bmp _ o _ ⟨page, g1, g2, g3, g4, g5, g6⟩
    refine writePpm_bitmap _ o rfl g1 g2 ?_ ?_ ?_
    · rw [g3]; rcases hm with h | h <;> simp [h, colors]
    · rw [g4]; rcases hm with h | h <;> simp [h, bitsPerColor]
    · rw [g6.same (hflip _)]
      rcases hm with h | h
      · have hb : o.black = false := by
          cases hb : o.black with
          | false => rfl
          | true => have := g5.mp hb; simp [h] at this
        simp [hb, h, Spec.pageOf]
      · have hb : o.black = true := g5.mpr (.inr h)
        simp [hb, h, Spec.pageOf]
  · have hall : All2 (fun n bmp => ∃ b, b = (if p.colorMode = .Black1 then bmp else invert bmp) ∧ b.length = (p.widthPx + 7) / 8 * p.heightPx ∧
        (∀ line < p.heightPx, ∀ col < p.widthPx,
          ((Spec.picture lib paper p n)[line * p.widthPx + col]? = some 0xffffff → bitAt b (8 * ((p.widthPx + 7) / 8 * line) + col) = false) ∧
          ((Spec.picture lib paper p n)[line * p.widthPx + col]? = some 0 → bitAt b (8 * ((p.widthPx + 7) / 8 * line) + col) = true)) ∧
        (∀ line < p.heightPx, ∀ col, p.widthPx ≤ col → col < 8 * ((p.widthPx + 7) / 8) → bitAt b (8 * ((p.widthPx + 7) / 8 * line) + col) = false)) seq bmps := by
      refine Raster.All2.imp_mem h2 ?_
      intro n _ bmp _ hc
      obtain ⟨bmp', c1, c2, c3, c4⟩ := C49_partial hl hm (picture_length (paper := paper) hdraw n) hh
      rw [hc] at c1; cases c1
      have hin : ∀ line < p.heightPx, ∀ col < 8 * ((p.widthPx + 7) / 8), 8 * ((p.widthPx + 7) / 8 * line) + col < 8 * bmp.length := by
        intro line hl col hcol
        rw [c2]
        have : (p.widthPx + 7) / 8 * (line + 1) ≤ (p.widthPx + 7) / 8 * p.heightPx := Nat.mul_le_mul_left _ hl
        rw [Nat.mul_succ] at this
        omega
      refine ⟨_, rfl, ?_, ?_, ?_⟩
      · split
        · exact c2
        · rw [← c2]; simp [invert]
      · intro line hl col hcol
        obtain ⟨d1, d2⟩ := c3 line hl col hcol
        have hi := hin line hl col (by omega)
        unfold Spec.Ink at d1 d2
        rcases hm with h | h
        · rw [if_neg (by simp [h]), bitAt_invert hi]
          refine ⟨fun e => ?_, fun e => ?_⟩
          · have := d1 e; simp [h] at this; simp [this]
          · have := d2 e; simp [h] at this; simp [this]
        · rw [if_pos h]
          refine ⟨fun e => ?_, fun e => ?_⟩
          · have := d1 e; simpa [h] using this
          · have := d2 e; simpa [h] using this
      · intro line hl col e1 e2
        have d := c4 line hl col e1 e2
        have hi := hin line hl col e2
        unfold Spec.Ink at d
        rcases hm with h | h
        · rw [if_neg (by simp [h]), bitAt_invert hi]
          simp [h] at d; simp [d]
        · rw [if_pos h]
          simpa [h] using d
    have hmap : ∀ {R : Nat → Bytes → Prop} {f : Bytes → Bytes} {as : List Nat} {bs : List Bytes}, All2 (fun a b => ∃ c, c = f b ∧ R a c) as bs → All2 R as (bs.map f) := by
      intro R f as bs h
      induction h with
      | nil => exact .nil
      | cons h _ ih => obtain ⟨c, rfl, h⟩ := h; exact .cons h ih
    exact hmap hall

/-- A page of two pixels, both black, in 1 bit per pixel where 1 is white: shown with two marks. -/
example : Spec.picture exLibrary {} { exPage with colorMode := .Gray1 } 1 = [0, 0] ∧ (∀ k, ¬ Flipped { exPage with colorMode := .Gray1 } k) ∧
    Fits { exPage with colorMode := .Gray1 } ∧
    pwg2ppm (ascii "x") (blocks (pdfToPrintable codeLuminosity exLibrary (fun _ => true) {} { exPage with colorMode := .Gray1, duplexMode := .OneSided, copies := 1 }).events).flatten =
      .ok (some (expectedFiles (ascii "x") 1 (List.replicate 3 (Spec.pageOf exPage .pbm [0xc0]).withLine))) :=
  ⟨by decide +kernel, fun _ h => by rcases h.2 with h | h <;> revert h <;> decide,
    ⟨by decide, by decide, by decide, by decide, by decide, by decide, by decide, by decide, by decide, by decide +kernel⟩, by decide +kernel⟩

/-- a renderer that draws every pixel of page `n` in the color `n * 0x112233` -/
def exTints : Library :=
  { pages := some 3, size := fun _ => (595, 842), draw := fun n _ img => img.map (fun _ => n * 0x112233), failed := fun _ => false, shown := fun _ => [1], finished := fun _ => [] }

/-- **C87, where it fails.** A page that is black all over is shown white, if it was sent as 8-bit ink. -/
theorem C87_false : Spec.picture exLibrary {} { exPage with colorMode := .Black8 } 1 = [0, 0] ∧
    pwg2ppm (ascii "x") (blocks (pdfToPrintable codeLuminosity exLibrary (fun _ => true) {} { exPage with colorMode := .Black8, duplexMode := .OneSided, copies := 1 }).events).flatten =
      .ok (some (expectedFiles (ascii "x") 1 (List.replicate 3 (Spec.pageOf exPage .pgm8 [255, 255])))) := by
  decide +kernel

/-- the hypotheses are met, and colors come out as they went in: two copies of three pages, each copy with a filler -/
example : (∀ n sc img, (exTints.draw n sc img).length = img.length) ∧ (∀ k, ¬ Flipped { exPage with colorMode := .CMYK32 } k) ∧
    { exPage with colorMode := .CMYK32 }.pageSequence 3 = .ok [1, 2, 3, 0, 1, 2, 3, 0] ∧ Fits { exPage with colorMode := .CMYK32 } ∧
    Spec.rgbBytes (Spec.picture exTints {} { exPage with colorMode := .CMYK32 } 3) = [0x33, 0x66, 0x99, 0x33, 0x66, 0x99] :=
  ⟨fun _ _ _ => List.length_map .., fun _ h => by rcases h.2 with h | h <;> revert h <;> decide, by decide +kernel,
    ⟨by decide, by decide, by decide, by decide, by decide, by decide, by decide, by decide, by decide, by decide +kernel⟩, by decide +kernel⟩

/-! ## CMYK pages of other programs (C88) -/

namespace Spec

/-- Amounts of cyan, magenta, yellow and black, each 0-255. -/
structure Inks where
  c : Nat
  m : Nat
  y : Nat
  k : Nat

/-- The four bytes of a pixel. -/
def Inks.bytes (i : Inks) : Bytes := [UInt8.ofNat i.c, UInt8.ofNat i.m, UInt8.ofNat i.y, UInt8.ofNat i.k]

/-- The color of a pixel: each ink, and black, takes away its amount from white, down to nothing. -/
def Inks.color (i : Inks) : Bytes := [UInt8.ofNat (255 - (i.c + i.k)), UInt8.ofNat (255 - (i.m + i.k)), UInt8.ofNat (255 - (i.y + i.k))]

/-- No ink beyond the black that there is already. -/
def Inks.Modest (i : Inks) : Prop := i.c + i.k ≤ 255 ∧ i.m + i.k ≤ 255 ∧ i.y + i.k ≤ 255

end Spec

theorem modest_color {i : Spec.Inks} (h : i.Modest) : cmyk2rgb i.bytes = i.color := by
  obtain ⟨h1, h2, h3⟩ := h
  have key : ∀ a k : Nat, a + k ≤ 255 → (255 : UInt8) - UInt8.ofNat k - UInt8.ofNat a = UInt8.ofNat (255 - (a + k)) := by
    intro a k h
    apply UInt8.toNat_inj.1
    rw [UInt8.toNat_sub_of_le, UInt8.toNat_sub_of_le]
    · simp; omega
    · rw [UInt8.le_iff_toNat_le]; simp; omega
    · rw [UInt8.le_iff_toNat_le, UInt8.toNat_sub_of_le]
      · simp; omega
      · rw [UInt8.le_iff_toNat_le]; simp; omega
  simp only [Spec.Inks.bytes, cmyk2rgb, cmykPixelToRgb, key _ _ h1, key _ _ h2, key _ _ h3, List.append_nil, Spec.Inks.color]

theorem modest_colors {l : List Spec.Inks} (h : ∀ i ∈ l, i.Modest) : cmyk2rgb (l.map Spec.Inks.bytes).flatten = (l.map Spec.Inks.color).flatten := by
  induction l with
  | nil => rfl
  | cons i is ih =>
    have h1 := modest_color (h i (by simp))
    simp only [List.map_cons, List.flatten_cons, ← h1, ← ih (fun j hj => h j (by simp [hj]))]
    rfl

/-- **C88, as far as it holds.** Every PWG document of CMYK pages that the encoder writes, whoever made the bitmaps, is shown in the colors of its inks, as long as no ink is added
to more black than leaves room for it and no page is turned over. -/
theorem C88_partial (pages : List (Params × Nat × List Spec.Inks))
    (h : ∀ x ∈ pages, x.1.format = .PWG ∧ x.1.colorMode = .CMYK32 ∧ Fits x.1 ∧ x.2.2.length = x.1.heightPx * x.1.widthPx ∧ ¬ Flipped x.1 x.2.1 ∧ ∀ i ∈ x.2.2, i.Modest) (pre : Bytes) :
    ∃ enc, encodePages (pages.map (fun x => (x.1, x.2.1, (x.2.2.map Spec.Inks.bytes).flatten))) = .ok enc ∧
      pwg2ppm pre (pwgFileHdr ++ enc) = .ok (some (expectedFiles pre 1 (pages.map (fun x => Spec.pageOf x.1 .ppm8 (x.2.2.map Spec.Inks.color).flatten)))) := by
  have hlen : ∀ l : List Spec.Inks, (l.map Spec.Inks.bytes).flatten.length = 4 * l.length := by
    intro l
    induction l with
    | nil => rfl
    | cons i is ih => simp only [List.map_cons, List.flatten_cons, List.length_append, ih, List.length_cons, Spec.Inks.bytes, List.length_nil]; omega
  obtain ⟨enc, outs, h1, h2, h3⟩ := C02_pwg_document (pages.map (fun x => (x.1, x.2.1, (x.2.2.map Spec.Inks.bytes).flatten))) (by
    intro x hx
    obtain ⟨y, hy, rfl⟩ := List.mem_map.1 hx
    obtain ⟨a, b, c, d, _, _⟩ := h y hy
    refine ⟨by rw [a]; decide, c, by rw [b]; decide, ?_⟩
    show List.length _ = _
    rw [hlen, d, b]
    have : rowBytes .CMYK32 y.1.widthPx = 4 * y.1.widthPx := by show (y.1.widthPx * 32 + 7) / 8 = _; omega
    rw [this, Nat.mul_left_comm])
  refine ⟨enc, h1, ?_⟩
  unfold pwg2ppm
  rw [h2]
  show Outcome.ok (some (pictureFiles pre 1 outs)) = _
  congr 2
  refine pictureFiles_expected pre _ outs ?_ 1
  clear h1 h2
  induction pages generalizing outs with
  | nil => cases h3; exact .nil
  | cons x xs ih =>
    cases h3 with
    | cons g gs =>
      refine .cons ?_ (ih (fun y hy => h y (by simp [hy])) _ gs)
      obtain ⟨_, hm, _, _, hfl, hmod⟩ := h x (by simp)
      obtain ⟨g1, g2, g3, g4, _, g5⟩ := g
      have g5 := g5.same hfl
      simp only at g1 g2 g3 g4 g5
      unfold writePpm
      rw [g1, g2, g3, g4, g5, hm]
      simp only [colors, bitsPerColor]
      simp [PnmPage.plain, PnmPage.bytes, Spec.pageOf, PnmKind.ext, PnmKind.magic, PnmKind.maxval, ascii, modest_colors hmod]

/-- **C88, where it fails.** Black with some cyan on it becomes bright red: `cmyk2rgb` counts below zero. Adding ink makes the picture lighter. -/
theorem C88_false : (∃ i : Spec.Inks, i.c ≤ 255 ∧ i.m ≤ 255 ∧ i.y ≤ 255 ∧ i.k ≤ 255 ∧ cmyk2rgb i.bytes ≠ i.color) ∧
    cmyk2rgb (Spec.Inks.bytes ⟨0, 0, 0, 255⟩) = [0, 0, 0] ∧ cmyk2rgb (Spec.Inks.bytes ⟨1, 0, 0, 255⟩) = [255, 0, 0] :=
  ⟨⟨⟨1, 0, 0, 255⟩, by decide, by decide, by decide, by decide, by decide⟩, by decide, by decide⟩

/-- the hypotheses are met by a page of two pixels -/
example : ∀ x ∈ [({ exPage with colorMode := .CMYK32 }, 1, [(⟨10, 20, 30, 40⟩ : Spec.Inks), ⟨0, 0, 0, 255⟩])],
    x.1.format = .PWG ∧ x.1.colorMode = .CMYK32 ∧ Fits x.1 ∧ x.2.2.length = x.1.heightPx * x.1.widthPx ∧ ¬ Flipped x.1 x.2.1 ∧ ∀ i ∈ x.2.2, i.Modest := by
  intro x hx
  simp only [List.mem_singleton] at hx
  subst hx
  refine ⟨rfl, rfl, ⟨by decide, by decide, by decide, by decide, by decide, by decide, by decide, by decide, by decide, by decide +kernel⟩, rfl,
    fun h => by rcases h.2 with h | h <;> revert h <;> decide, ?_⟩
  intro i hi
  simp only [List.mem_cons, List.not_mem_nil, or_false] at hi
  rcases hi with rfl | rfl <;> exact ⟨by decide, by decide, by decide⟩

end Verif.Pdf
