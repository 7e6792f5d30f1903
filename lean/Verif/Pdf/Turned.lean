import Verif.Pdf.Shown

/-!
# `pdf2printable` followed by `pwg2ppm`, with pages that are turned over (C87)

`pwg2ppm` shows the pages as they lie in the file: the back sides of a duplex job are mirrored as the printer asked for.
-/

namespace Verif.Pdf

open Raster Raster.Spec

namespace Spec

/-- A picture of `w` by `h` pixels, mirrored left-right if `mh` and top-bottom if `mv`. -/
def turned (w h : Nat) (mh mv : Bool) (img : List Rgb) : List Rgb :=
  (List.range h).flatMap (fun y => (List.range w).map (fun x => img.getD ((if mv then h - 1 - y else y) * w + (if mh then w - 1 - x else x)) 0))

/-- How the sheet's side with number `k` (from 1) lies in the file. -/
def side (p : Params) (k : Nat) (img : List Rgb) : List Rgb :=
  turned p.widthPx p.heightPx (decide (IsBack p.duplexMode k) && mirrorH p.duplexMode p.backXformMode)
    (decide (IsBack p.duplexMode k) && mirrorV p.duplexMode p.backXformMode) img

end Spec

open Spec

theorem flatMap_range_get {α : Type} (f : Nat → List α) (w : Nat) (hf : ∀ y, (f y).length = w) (h : Nat) :
    ((List.range h).flatMap f).length = h * w ∧ ∀ y x, y < h → x < w → ((List.range h).flatMap f)[y * w + x]? = (f y)[x]? := by
  induction h with
  | zero => exact ⟨by simp, fun y x hy => absurd hy (by omega)⟩
  | succ h ih =>
    obtain ⟨h1, h2⟩ := ih
    rw [List.range_succ, List.flatMap_append]
    refine ⟨by simp [h1, hf, Nat.succ_mul], fun y x hy hx => ?_⟩
    by_cases hyh : y < h
    · rw [List.getElem?_append_left, h2 y x hyh hx]
      rw [h1]
      have : (y + 1) * w ≤ h * w := Nat.mul_le_mul_right _ hyh
      rw [Nat.succ_mul] at this; omega
    · have : y = h := by omega
      subst this
      rw [List.getElem?_append_right (by rw [h1]; omega), h1]
      simp

theorem turned_length (w h : Nat) (mh mv : Bool) (img : List Rgb) : (turned w h mh mv img).length = w * h := by
  rw [turned, (flatMap_range_get _ w (by simp) h).1, Nat.mul_comm]

theorem turned_get {w h : Nat} (mh mv : Bool) (img : List Rgb) (hd : img.length = w * h) {x y : Nat} (hx : x < w) (hy : y < h) :
    (turned w h mh mv img)[y * w + x]? = img[(if mv then h - 1 - y else y) * w + (if mh then w - 1 - x else x)]? := by
  rw [turned, (flatMap_range_get _ w (by simp) h).2 y x hy hx, List.getElem?_map, List.getElem?_range hx, Option.map_some]
  have hlt : (if mv then h - 1 - y else y) * w + (if mh then w - 1 - x else x) < img.length := by
    rw [hd]
    have h1 : (if mv then h - 1 - y else y) + 1 ≤ h := by split <;> omega
    have h2 : (if mh then w - 1 - x else x) < w := by split <;> omega
    have := Nat.mul_le_mul_right w h1
    rw [Nat.succ_mul] at this
    rw [Nat.mul_comm w h]; omega
  rw [List.getD_eq_getElem?_getD, List.getElem?_eq_getElem hlt]; rfl

/-- The bytes of pixels, one pixel at a time. -/
theorem pixels_get {f : Rgb → Bytes} {c : Nat} (hc : ∀ q, (f q).length = c) (img : List Rgb) :
    (img.map f).flatten.length = img.length * c ∧
    ∀ i j, j < c → (img.map f).flatten[i * c + j]? = (img[i]?).bind (fun q => (f q)[j]?) := by
  induction img with
  | nil => exact ⟨by simp, fun i j _ => by simp⟩
  | cons q qs ih =>
    refine ⟨by simp [ih.1, hc, Nat.succ_mul, Nat.add_comm], fun i j hj => ?_⟩
    simp only [List.map_cons, List.flatten_cons]
    cases i with
    | zero => rw [List.getElem?_append_left (by rw [hc]; omega)]; simp
    | succ i =>
      rw [List.getElem?_append_right (by rw [hc, Nat.succ_mul]; omega), hc, Nat.succ_mul, show i * c + c + j - c = i * c + j by omega, ih.2 i j hj]
      simp

theorem byte_ext {a b : UInt8} (h : ∀ k < 8, a.toNat.testBit (7 - k) = b.toNat.testBit (7 - k)) : a = b := by
  apply UInt8.toNat_inj.mp
  apply Nat.eq_of_testBit_eq
  intro i
  by_cases hi : i < 8
  · have := h (7 - i) (by omega)
    rwa [show 7 - (7 - i) = i by omega] at this
  · rw [Nat.testBit_lt_two_pow, Nat.testBit_lt_two_pow]
    · exact Nat.lt_of_lt_of_le (UInt8.toNat_lt b) (by have := Nat.pow_le_pow_right (n := 2) (by omega) (show 8 ≤ i by omega); simpa using this)
    · exact Nat.lt_of_lt_of_le (UInt8.toNat_lt a) (by have := Nat.pow_le_pow_right (n := 2) (by omega) (show 8 ≤ i by omega); simpa using this)

theorem bitAt_byte (b : Bytes) (i k : Nat) (hk : k < 8) : bitAt b (8 * i + k) = (b.getD i 0).toNat.testBit (7 - k) := by
  unfold bitAt
  rw [show (8 * i + k) / 8 = i by omega, show (8 * i + k) % 8 = k by omega]

/-- With whole bytes per pixel, turning the bytes of a picture is turning the picture. -/
theorem transformed_pixels {f : Rgb → Bytes} {c w h : Nat} (hc : ∀ q, (f q).length = c) {img : List Rgb} (hd : img.length = w * h) {mh mv : Bool} {out : Bytes}
    (ht : Transformed w h (w * c) (8 * c) mh mv (img.map f).flatten out) : out = ((turned w h mh mv img).map f).flatten := by
  obtain ⟨hlen, hbits⟩ := ht
  obtain ⟨l1, g1⟩ := pixels_get hc img
  obtain ⟨l2, g2⟩ := pixels_get hc (turned w h mh mv img)
  rw [turned_length] at l2
  apply List.ext_getElem (by rw [hlen, l2, Nat.mul_comm w h, Nat.mul_assoc])
  intro i hi hi'
  rw [hlen] at hi
  have hc0 : 0 < c := by
    rcases Nat.eq_zero_or_pos c with h0 | h0
    · subst h0; simp at hi
    · exact h0
  have hw0 : 0 < w := by
    rcases Nat.eq_zero_or_pos w with h0 | h0
    · subst h0; simp at hi
    · exact h0
  -- the position in row, pixel, byte
  obtain ⟨y, r, hr, rfl⟩ : ∃ y r, r < w * c ∧ i = y * (w * c) + r :=
    ⟨i / (w * c), i % (w * c), Nat.mod_lt _ (Nat.mul_pos hw0 hc0), (Nat.div_add_mod' i (w * c)).symm⟩
  obtain ⟨x, j, hj, rfl⟩ : ∃ x j, j < c ∧ r = x * c + j := ⟨r / c, r % c, Nat.mod_lt _ hc0, (Nat.div_add_mod' r c).symm⟩
  have hy : y < h := by
    apply Nat.lt_of_mul_lt_mul_right (a := w * c)
    omega
  have hx : x < w := by
    apply Nat.lt_of_mul_lt_mul_right (a := c)
    omega
  have e0 : y * (w * c) + (x * c + j) = (y * w + x) * c + j := by rw [Nat.add_mul, Nat.mul_assoc, Nat.add_assoc]
  have key : some (out[y * (w * c) + (x * c + j)]'(by rw [hlen]; exact hi)) =
      ((turned w h mh mv img).map f).flatten[y * (w * c) + (x * c + j)]? := by
    have e3 : ((turned w h mh mv img).map f).flatten[y * (w * c) + (x * c + j)]? =
        (img.map f).flatten[((if mv then h - 1 - y else y) * w + (if mh then w - 1 - x else x)) * c + j]? := by
      rw [e0, g2 _ _ hj, turned_get mh mv img hd hx hy, ← g1 _ _ hj]
    rw [e3]
    generalize hy' : (if mv then h - 1 - y else y) = y' at *
    generalize hx' : (if mh then w - 1 - x else x) = x' at *
    have hlt : (y' * w + x') * c + j < (img.map f).flatten.length := by
      rw [l1, hd]
      have h1 : y' + 1 ≤ h := by rw [← hy']; split <;> omega
      have h2 : x' < w := by rw [← hx']; split <;> omega
      have := Nat.mul_le_mul_right w h1
      rw [Nat.succ_mul] at this
      have h3 : y' * w + x' + 1 ≤ w * h := by rw [Nat.mul_comm w h]; omega
      have := Nat.mul_le_mul_right c h3
      rw [Nat.succ_mul] at this
      omega
    rw [List.getElem?_eq_getElem hlt]
    congr 1
    apply byte_ext
    intro k hk
    have hb := hbits y hy x hx (8 * j + k) (by omega)
    rw [hy', hx'] at hb
    have e1 : 8 * (w * c * y) + 8 * c * x + (8 * j + k) = 8 * (y * (w * c) + (x * c + j)) + k := by
      rw [Nat.mul_comm (w * c) y, Nat.mul_assoc 8 c x, Nat.mul_comm c x]; omega
    have e2 : 8 * (w * c * y') + 8 * c * x' + (8 * j + k) = 8 * ((y' * w + x') * c + j) + k := by
      rw [Nat.mul_comm (w * c) y', Nat.mul_assoc 8 c x', Nat.mul_comm c x', Nat.add_mul, Nat.mul_assoc y' w c]; omega
    rw [e1, e2, bitAt_byte _ _ _ hk, bitAt_byte _ _ _ hk] at hb
    rw [List.getD_eq_getElem?_getD, List.getD_eq_getElem?_getD, List.getElem?_eq_getElem hlt, List.getElem?_eq_getElem (by rw [hlen]; exact hi)] at hb
    simpa using hb
  rw [List.getElem?_eq_getElem hi'] at key
  exact Option.some.inj key

/-- What lies in the file is what `copy_raster_buffer` would make of the turned picture, with 8 bits per color. -/
theorem copy_side {lum : Luminosity} {p : Params} (hb : bitsPerColor p.colorMode = 8) {img : List Rgb} (hd : img.length = p.widthPx * p.heightPx) {k : Nat}
    {bmp out : Bytes} (h : copyRasterBuffer lum p img = .ok bmp) (hp : Pixels p k bmp out) : copyRasterBuffer lum p (side p k img) = .ok out := by
  have hl : (side p k img).length = p.widthPx * p.heightPx := turned_length ..
  have ht := hp.mirrored (fun _ _ => by
    refine Nat.dvd_trans ?_ (Nat.dvd_mul_left _ _)
    revert hb; cases p.colorMode <;> simp [bitsPerColor, bitsPerPixel])
  have main : ∀ (f : Rgb → Bytes) (c : Nat), (∀ q, (f q).length = c) → rowBytes p.colorMode p.widthPx = p.widthPx * c → bitsPerPixel p.colorMode = 8 * c →
      eachPixel img (p.widthPx * p.heightPx) f = .ok bmp → eachPixel (side p k img) (p.widthPx * p.heightPx) f = .ok out := by
    intro f c hc h1 h2 he
    unfold eachPixel at he ⊢
    rw [if_neg (by omega), List.take_of_length_le (by omega)] at he ⊢
    cases he
    rw [h1, h2] at ht
    rw [transformed_pixels hc hd ht]; rfl
  unfold copyRasterBuffer at h ⊢
  revert hb h
  cases hm : p.colorMode <;> intro hb h <;> simp only [hm] at h ⊢ main <;> first
    | exact main _ 1 (fun _ => rfl) (by simp [rowBytes, bitsPerPixel]; omega) rfl h
    | exact main _ 3 (fun _ => rfl) (by simp [rowBytes, bitsPerPixel]; omega) rfl h
    | exact main _ 4 (fun _ => rfl) (by simp [rowBytes, bitsPerPixel]; omega) rfl h
    | (simp [bitsPerColor] at hb)

theorem numbered_all2_idx {p : Params} {R : Params × Nat × Bytes → PageOut → Prop} {S : Nat → Bytes → Prop} {T : Nat × Nat → PageOut → Prop}
    (hT : ∀ n k bmp o, S n bmp → R (p, k, bmp) o → T (n, k) o) {seq : List Nat} {bmps : List Bytes} {k : Nat} {outs : List PageOut} (h1 : All2 S seq bmps)
    (h2 : All2 R (numbered p k bmps) outs) : All2 T (seq.zipIdx (k + 1)) outs := by
  induction h1 generalizing k outs with
  | nil => cases h2; exact .nil
  | cons h _ ih =>
    cases h2 with
    | cons g1 g2 =>
      rw [List.zipIdx_cons]
      exact .cons (hT _ _ _ _ h g1) (ih g2)

/-- A page that is read with the bytes that were made of the side. -/
def Laid (lum : Luminosity) (lib : Library) (paper : Paper) (p : Params) (x : Nat × Nat) (o : PageOut) : Prop :=
  o.width = p.widthPx ∧ o.height = p.heightPx ∧ o.colors = colors p.colorMode ∧ o.bits = 8 ∧
    copyRasterBuffer lum p (side p x.2 (picture lib paper p x.1)) = .ok o.bmp

/-- From the page sequence to the pages that are read, turned over or not. -/
theorem document_laid {lum : Luminosity} (hl : Spec.Sums lum.plus) {lib : Library} {paper : Paper} {p : Params} (hf : p.format = .PWG ∨ p.format = .URF)
    (hu : p.format = .URF → UrfAble p) (hb : bitsPerColor p.colorMode = 8) (hfit : Fits p) (hh : p.heightPx ≤ 38347922) {pages : Nat} (hp : lib.pages = some pages)
    (hfail : ∀ d, lib.failed d = false) (hdraw : ∀ n sc img, (lib.draw n sc img).length = img.length) {taken : List Bytes → Bool} (ht : ∀ l, taken l = true)
    {seq : List Nat} (hseq : p.pageSequence pages = .ok seq) (hn : seq.length < 2 ^ 32) :
    ∃ outs, All2 (Laid lum lib paper p) (seq.zipIdx 1) outs ∧
      ∀ pre, pwg2ppm pre (blocks (pdfToPrintable lum lib taken paper p).events).flatten = .ok (some (pictureFiles pre 1 outs)) := by
  rcases hf with hf | hf
  · obtain ⟨seq', bmps, outs, h1, _, _, h2, h3, h4, _⟩ := C48_pwg_document hl (paper := paper) hf (by omega) hfit hh hp hfail hdraw ht
    rw [hseq] at h1; cases h1
    refine ⟨outs, numbered_all2_idx ?_ h2 h4, fun pre => ?_⟩
    · rintro n k bmp o hc ⟨g1, g2, g3, g4, _, g5⟩
      exact ⟨g1, g2, g3, by rw [g4]; exact hb, copy_side hb (picture_length hdraw n) hc g5⟩
    · unfold pwg2ppm; rw [h3]; rfl
  · have hua := hu hf
    obtain ⟨bmps, outs, _, _, h2, h3, h4, _⟩ := C48_urf_document hl (paper := paper) hf (by omega) hua hfit hh hp hfail hdraw ht hseq hn
    have hbits : ∀ o ∈ outs, o.bits = 8 := by
      have h3 := h3
      unfold readRaster at h3
      split at h3
      · obtain ⟨_, _, h3⟩ := Outcome.bind_eq_ok.mp h3
        cases h3
      · split at h3
        · split at h3
          · cases h3
          · obtain ⟨⟨n, rest⟩, _, h3⟩ := Outcome.bind_eq_ok.mp h3
            obtain ⟨l, h5, h3⟩ := Outcome.bind_eq_ok.mp h3
            cases h3
            exact fun o ho => (readUrfPages_bits h5 o ho).1
        · cases h3
    refine ⟨outs, ?_, fun pre => ?_⟩
    · have h5 : All2 (fun (x : Nat × Nat) (o : PageOut) => o.width = p.widthPx ∧ o.height = p.heightPx ∧ o.colors = colors p.colorMode ∧
          copyRasterBuffer lum p (side p x.2 (picture lib paper p x.1)) = .ok o.bmp) (seq.zipIdx 1) outs := by
        refine numbered_all2_idx ?_ h2 h4
        rintro n k bmp o hc ⟨g1, g2, g3, g5⟩
        refine ⟨g1, g2, ?_, copy_side hb (picture_length hdraw n) hc g5⟩
        revert g3 hb
        show _ → o.colors * 8 = bitsPerPixel p.colorMode → _
        cases p.colorMode <;> simp [bitsPerPixel, colors, bitsPerColor] <;> omega
      refine Raster.All2.imp_mem h5 ?_
      rintro x _ o ho ⟨g1, g2, g3, g4⟩
      exact ⟨g1, g2, g3, hbits o ho, g4⟩
    · unfold pwg2ppm; rw [h3]; rfl

/-- **C87, in color, also with pages that are turned over.** For every document and page sequence, as long as cairo does not fail and every block is taken: what `pdf2printable`
writes in sRGB or CMYK, PWG or URF, `pwg2ppm` shows as one picture per element of the page sequence, numbered in order, with exactly the red, green and blue that were drawn (white for a
filler), mirrored for the back side as the file has it. -/
theorem C87_color_sides {lum : Luminosity} (hl : Spec.Sums lum.plus) {lib : Library} {paper : Paper} {p : Params} (hf : p.format = .PWG ∨ p.format = .URF)
    (hu : p.format = .URF → UrfAble p) (hm : p.colorMode = .sRGB24 ∨ p.colorMode = .CMYK32) (hfit : Fits p) (hh : p.heightPx ≤ 38347922) {pages : Nat}
    (hp : lib.pages = some pages) (hfail : ∀ d, lib.failed d = false) (hdraw : ∀ n sc img, (lib.draw n sc img).length = img.length) {taken : List Bytes → Bool}
    (ht : ∀ l, taken l = true) {seq : List Nat} (hseq : p.pageSequence pages = .ok seq) (hn : seq.length < 2 ^ 32) (pre : Bytes) :
    pwg2ppm pre (blocks (pdfToPrintable lum lib taken paper p).events).flatten =
      .ok (some (expectedFiles pre 1 ((seq.zipIdx 1).map (fun x => Spec.pageOf p .ppm8 (Spec.rgbBytes (side p x.2 (Spec.picture lib paper p x.1))))))) := by
  have hb : bitsPerColor p.colorMode = 8 := by rcases hm with h | h <;> rw [h] <;> rfl
  obtain ⟨outs, h2, h3⟩ := document_laid hl (paper := paper) hf hu hb hfit hh hp hfail hdraw ht hseq hn
  rw [h3 pre]
  congr 2
  refine pictureFiles_expected pre _ outs (all2_map (Raster.All2.imp_mem h2 ?_)) 1
  rintro x _ o _ ⟨w1, w2, w3, w4, w5⟩
  have hlen : (side p x.2 (picture lib paper p x.1)).length = p.widthPx * p.heightPx := turned_length ..
  have hpx := color_bitmap hm hlen w5
  unfold writePpm
  rw [w1, w2, w3, w4]
  rcases hm with hm | hm
  · rw [hm] at hpx ⊢
    rw [if_neg (by decide)] at hpx
    simp [PnmPage.plain, PnmPage.bytes, Spec.pageOf, PnmKind.ext, PnmKind.magic, PnmKind.maxval, ascii, colors, hpx]
  · rw [hm] at hpx ⊢
    rw [if_pos (by decide)] at hpx
    simp [PnmPage.plain, PnmPage.bytes, Spec.pageOf, PnmKind.ext, PnmKind.magic, PnmKind.maxval, ascii, colors, hpx]

theorem all2_levels {α β γ : Type} {R : α → γ → Prop} (f : β → γ) {as : List α} {bs : List β} (h : All2 (fun a b => R a (f b)) as bs) : All2 R as (bs.map f) := by
  induction h with
  | nil => exact .nil
  | cons h _ ih => exact .cons h ih

/-- **C87, in gray, also with pages that are turned over.** Likewise, each pixel with its luminosity, cut off to a whole number or one less; 8-bit ink gives negatives. -/
theorem C87_gray_sides {lum : Luminosity} (hl : Spec.Sums lum.plus) (hr : Spec.Rounds lum) {lib : Library} {paper : Paper} {p : Params} (hf : p.format = .PWG ∨ p.format = .URF)
    (hu : p.format = .URF → UrfAble p) (hm : p.colorMode = .Gray8 ∨ p.colorMode = .Black8) (hfit : Fits p) (hh : p.heightPx ≤ 38347922) {pages : Nat}
    (hp : lib.pages = some pages) (hfail : ∀ d, lib.failed d = false) (hdraw : ∀ n sc img, (lib.draw n sc img).length = img.length) {taken : List Bytes → Bool}
    (ht : ∀ l, taken l = true) {seq : List Nat} (hseq : p.pageSequence pages = .ok seq) (hn : seq.length < 2 ^ 32) (pre : Bytes) :
    ∃ levels, pwg2ppm pre (blocks (pdfToPrintable lum lib taken paper p).events).flatten = .ok (some (expectedFiles pre 1 (levels.map (Spec.pageOf p .pgm8)))) ∧
      All2 (fun x l => l.length = p.widthPx * p.heightPx ∧ ∀ (i q : Nat) (b : UInt8), (side p x.2 (Spec.picture lib paper p x.1))[i]? = some q → l[i]? = some b →
        if p.colorMode = .Gray8 then 1000 * b.toNat ≤ Spec.luma1000 q ∧ Spec.luma1000 q ≤ 1000 * b.toNat + 1000
        else 1000 * b.toNat + Spec.luma1000 q ≤ 255000 ∧ 255000 ≤ 1000 * b.toNat + Spec.luma1000 q + 1000) (seq.zipIdx 1) levels := by
  obtain ⟨outs, h2, h3⟩ := document_laid hl (paper := paper) hf hu (by rcases hm with h | h <;> rw [h] <;> rfl) hfit hh hp hfail hdraw ht hseq hn
  refine ⟨outs.map (·.bmp), ?_, all2_levels _ (Raster.All2.imp_mem h2 ?_)⟩
  · rw [h3 pre, List.map_map]
    congr 2
    have h4 : All2 (fun (o o' : PageOut) => o = o' ∧ o.width = p.widthPx ∧ o.height = p.heightPx ∧ o.colors = colors p.colorMode ∧ o.bits = 8) outs outs := by
      clear h3
      generalize seq.zipIdx 1 = l at h2
      induction h2 with
      | nil => exact .nil
      | cons h _ ih => exact .cons ⟨rfl, h.1, h.2.1, h.2.2.1, h.2.2.2.1⟩ ih
    refine pictureFiles_expected pre _ outs (all2_map (Raster.All2.imp_mem h4 ?_)) 1
    rintro o _ _ _ ⟨rfl, w1, w2, w3, w4⟩
    unfold writePpm
    rw [w1, w2, w3, w4]
    rcases hm with hm | hm <;>
      simp [hm, PnmPage.plain, PnmPage.bytes, Spec.pageOf, PnmKind.ext, PnmKind.magic, PnmKind.maxval, ascii, colors]
  · rintro x _ o _ ⟨_, _, _, _, hc⟩
    have hlen : (side p x.2 (picture lib paper p x.1)).length = p.widthPx * p.heightPx := turned_length ..
    rcases hm with hm | hm
    · obtain ⟨bmp', g1, g2, g3⟩ := C62_gray hr hm hlen
      rw [hc] at g1; cases g1
      exact ⟨g2, fun i q b e1 e2 => by rw [if_pos hm]; exact g3 i q b e1 e2⟩
    · obtain ⟨bmp', g1, g2, g3⟩ := C62_black hr hm hlen
      rw [hc] at g1; cases g1
      exact ⟨g2, fun i q b e1 e2 => by rw [if_neg (by rw [hm]; decide)]; exact g3 i q b e1 e2⟩

/-- **C87, bitmaps, also with pages that are turned over** (with whole bytes per line, if they are mirrored left-right; C05 tells why). There is a mark on every pixel that was drawn black
and none on those that were drawn white, mirrored for the back side as the file has it. As C61 says, there is a line "255" before the pixels. -/
theorem C87_bitmap_sides {lum : Luminosity} (hl : Spec.Sums lum.plus) {lib : Library} {paper : Paper} {p : Params} (hf : p.format = .PWG)
    (hm : p.colorMode = .Gray1 ∨ p.colorMode = .Black1) (hw : mirrorH p.duplexMode p.backXformMode = true → 8 ∣ p.widthPx) (hfit : Fits p) (hh : p.heightPx ≤ 38347922) {pages : Nat}
    (hp : lib.pages = some pages) (hfail : ∀ d, lib.failed d = false) (hdraw : ∀ n sc img, (lib.draw n sc img).length = img.length) {taken : List Bytes → Bool}
    (ht : ∀ l, taken l = true) {seq : List Nat} (hseq : p.pageSequence pages = .ok seq) (pre : Bytes) :
    ∃ bits, pwg2ppm pre (blocks (pdfToPrintable lum lib taken paper p).events).flatten = .ok (some (expectedFiles pre 1 (bits.map (fun b => (Spec.pageOf p .pbm b).withLine)))) ∧
      All2 (fun x b => b.length = (p.widthPx + 7) / 8 * p.heightPx ∧ ∀ line < p.heightPx, ∀ col < p.widthPx,
        ((side p x.2 (Spec.picture lib paper p x.1))[line * p.widthPx + col]? = some 0xffffff → bitAt b (8 * ((p.widthPx + 7) / 8 * line) + col) = false) ∧
        ((side p x.2 (Spec.picture lib paper p x.1))[line * p.widthPx + col]? = some 0 → bitAt b (8 * ((p.widthPx + 7) / 8 * line) + col) = true)) (seq.zipIdx 1) bits := by
  obtain ⟨seq', bmps, outs, h1, _, _, h2, h3, h4, _⟩ := C48_pwg_document hl (paper := paper) hf (by rcases hm with h | h <;> rw [h] <;> decide) hfit hh hp hfail hdraw ht
  rw [hseq] at h1; cases h1
  have hrow : rowBytes p.colorMode p.widthPx = (p.widthPx + 7) / 8 := by rcases hm with h | h <;> rw [h] <;> simp [rowBytes, bitsPerPixel]
  have hbpp : bitsPerPixel p.colorMode = 1 := by rcases hm with h | h <;> rw [h] <;> rfl
  have h5 : All2 (fun (x : Nat × Nat) (o : PageOut) => (o.width = p.widthPx ∧ o.height = p.heightPx ∧ o.colors = 1 ∧ o.bits = 1 ∧ (o.black = true ↔ p.colorMode = .Black1)) ∧
      ∃ bmp, copyRasterBuffer lum p (picture lib paper p x.1) = .ok bmp ∧ Pixels p x.2 bmp o.bmp) (seq.zipIdx 1) outs := by
    refine numbered_all2_idx ?_ h2 h4
    rintro n k bmp o hc ⟨g1, g2, g3, g4, g5, g6⟩
    refine ⟨⟨g1, g2, ?_, ?_, ?_⟩, bmp, hc, g6⟩
    · rw [g3]; rcases hm with h | h <;> simp [h, colors]
    · rw [g4]; rcases hm with h | h <;> simp [h, bitsPerColor]
    · rw [g5]; rcases hm with h | h <;> simp [h]
  refine ⟨outs.map (fun o => if p.colorMode = .Black1 then o.bmp else invert o.bmp), ?_, all2_levels _ (Raster.All2.imp_mem h5 ?_)⟩
  · unfold pwg2ppm
    rw [h3]
    simp only [Outcome.bind_ok, Outcome.pure_eq, List.map_map]
    congr 2
    have h6 : All2 (fun (o o' : PageOut) => o = o' ∧ o.width = p.widthPx ∧ o.height = p.heightPx ∧ o.colors = 1 ∧ o.bits = 1 ∧ (o.black = true ↔ p.colorMode = .Black1)) outs outs := by
      clear h3 h4
      generalize seq.zipIdx 1 = l at h5
      induction h5 with
      | nil => exact .nil
      | cons h _ ih => exact .cons ⟨rfl, h.1⟩ ih
    refine pictureFiles_expected pre _ outs (all2_map (Raster.All2.imp_mem h6 ?_)) 1
    rintro o _ _ _ ⟨rfl, g1, g2, g3, g4, g5⟩
    refine writePpm_bitmap _ o rfl g1 g2 g3 g4 ?_
    rcases hm with h | h
    · have hb : o.black = false := by
        cases hb : o.black with
        | false => rfl
        | true => have := g5.mp hb; simp [h] at this
      simp [hb, h, Spec.pageOf]
    · have hb : o.black = true := g5.mpr h
      simp [hb, h, Spec.pageOf]
  · rintro x _ o _ ⟨_, bmp, hc, hpx⟩
    obtain ⟨bmp', c1, c2, c3, _⟩ := C49_partial hl hm (picture_length (paper := paper) hdraw x.1) hh
    rw [hc] at c1; cases c1
    have hsize := hpx.size
    obtain ⟨t1, t2⟩ := hpx.mirrored (fun _ g => by rw [hbpp, Nat.mul_one]; exact hw g)
    rw [hrow] at t1 t2 hsize
    rw [hbpp] at t2
    refine ⟨?_, fun line hline col hcol => ?_⟩
    · split
      · rw [hsize, Nat.mul_comm]
      · rw [invert, List.length_map, hsize, Nat.mul_comm]
    · have ho := t2 line hline col hcol 0 (by omega)
      simp only [Nat.one_mul, Nat.add_zero] at ho
      have hi : 8 * ((p.widthPx + 7) / 8 * line) + col < 8 * o.bmp.length := by
        rw [hsize]
        have : (line + 1) * ((p.widthPx + 7) / 8) ≤ p.heightPx * ((p.widthPx + 7) / 8) := Nat.mul_le_mul_right _ hline
        rw [Nat.succ_mul, Nat.mul_comm line] at this
        omega
      have hs : (side p x.2 (picture lib paper p x.1))[line * p.widthPx + col]? = _ := turned_get _ _ _ (picture_length hdraw x.1) hcol hline
      rw [hs]
      generalize hl' : (if (decide (IsBack p.duplexMode x.2) && mirrorV p.duplexMode p.backXformMode) = true then p.heightPx - 1 - line else line) = line' at *
      generalize hc' : (if (decide (IsBack p.duplexMode x.2) && mirrorH p.duplexMode p.backXformMode) = true then p.widthPx - 1 - col else col) = col' at *
      obtain ⟨d1, d2⟩ := c3 line' (by rw [← hl']; split <;> omega) col' (by rw [← hc']; split <;> omega)
      unfold Spec.Ink at d1 d2
      rcases hm with h | h
      · rw [if_neg (by simp [h]), bitAt_invert hi, ho]
        refine ⟨fun e => ?_, fun e => ?_⟩
        · have := d1 e; simp [h] at this; simp [this]
        · have := d2 e; simp [h] at this; simp [this]
      · rw [if_pos h, ho]
        refine ⟨fun e => ?_, fun e => ?_⟩
        · have := d1 e; simpa [h] using this
        · have := d2 e; simpa [h] using this

/-- a renderer that draws the pixels of page `n` in different colors -/
def exPattern : Library :=
  { pages := some 2, size := fun _ => (595, 842), draw := fun n _ img => img.zipIdx.map (fun x => n * 256 + x.2), failed := fun _ => false, shown := fun _ => [1], finished := fun _ => [] }

/-- a sheet with a back side that is turned by 180 degrees -/
def exSheet : Params := { format := .PWG, colorMode := .sRGB24, widthPx := 2, heightPx := 2, duplexMode := .TwoSidedLongEdge, backXformMode := .Rotated }

/-- The hypotheses are met by a job with a page that is turned over: the pixels of the second page come in the opposite order. -/
example : Flipped exSheet 2 ∧ Fits exSheet ∧ (∀ n sc img, (exPattern.draw n sc img).length = img.length) ∧ exSheet.pageSequence 2 = .ok [1, 2] ∧
    [1, 2].zipIdx 1 = [(1, 1), (2, 2)] ∧ side exSheet 1 (picture exPattern {} exSheet 1) = [256, 257, 258, 259] ∧
    side exSheet 2 (picture exPattern {} exSheet 2) = [515, 514, 513, 512] ∧
    pwg2ppm (ascii "x") (blocks (pdfToPrintable codeLuminosity exPattern (fun _ => true) {} exSheet).events).flatten =
      .ok (some (expectedFiles (ascii "x") 1 [Spec.pageOf exSheet .ppm8 [0, 1, 0, 0, 1, 1, 0, 1, 2, 0, 1, 3], Spec.pageOf exSheet .ppm8 [0, 2, 3, 0, 2, 2, 0, 2, 1, 0, 2, 0]])) :=
  ⟨⟨by decide, by decide⟩, ⟨by decide, by decide, by decide, by decide, by decide, by decide, by decide, by decide, by decide, by decide +kernel⟩,
    fun _ _ img => by simp [exPattern], by decide +kernel, by decide, by decide +kernel, by decide +kernel, by decide +kernel⟩

/-- likewise a bitmap with whole bytes per line -/
example : mirrorH exSheet.duplexMode exSheet.backXformMode = true ∧ (mirrorH exSheet.duplexMode exSheet.backXformMode = true → 8 ∣ { exSheet with colorMode := .Black1, widthPx := 16 }.widthPx) ∧
    Fits { exSheet with colorMode := .Black1, widthPx := 16 } :=
  ⟨by decide, fun _ => by decide, ⟨by decide, by decide, by decide, by decide, by decide, by decide, by decide, by decide, by decide, by decide +kernel⟩⟩

end Verif.Pdf
