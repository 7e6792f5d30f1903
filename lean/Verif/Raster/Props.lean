import Verif.Raster.SizeLemmas
import Verif.Raster.PnmLemmas

/-!
# Property theorems of the raster codec

C01-C11, C13, C18. The specification is in `Verif/Raster/Spec.lean`; `ShowsPwg`, `ShowsUrf` (what a reader of a page must see)
in `Verif/Raster/DocLemmas.lean`.
-/

namespace Verif.Raster

open Spec

/-- Parameters used by the examples: a two-sided sRGB page, 3x2 pixels. -/
def exParams : Params :=
  { format := .PWG, widthPx := 3, heightPx := 2, duplexMode := .TwoSidedLongEdge, backXformMode := .Rotated }

theorem exParams_fits : Spec.Fits exParams := by constructor <;> decide

/-- 18 different bytes. -/
def exBmp : Bytes := (List.range 18).map UInt8.ofNat

/-- **C01** Decoding the body of an encoded page gives the bitmap back, byte for byte, and leaves what follows. -/
theorem C01_page_roundtrip (p : Params) (page : Nat) (bmp : Bytes) (hf : Spec.Fits p)
    (hurf : p.format = .URF → UrfAble p) (hflip : ¬ Flipped p page)
    (hlen : bmp.length = p.heightPx * rowBytes p.colorMode p.widthPx) :
    ∃ hdr body, bmpToPwg p page bmp = .ok (hdr ++ body) ∧
      hdr.length = (if p.format = .URF then 32 else 1796) ∧
      ∀ (urf : Bool) (rest : Bytes),
        rasterToBmp (body ++ rest) (rowBytes p.colorMode p.widthPx) p.heightPx (unit p.colorMode) urf =
          .ok (bmp, rest) := by
  obtain ⟨hdr, body, out, h1, h2, h3, h4, h5, h6, h7⟩ := bmpToPwg_spec p page bmp hf hurf (by omega)
  refine ⟨hdr, body, h1, ?_, ?_⟩
  · split
    · rename_i hu; obtain ⟨_, _, _, h, _⟩ := h3 hu; exact h
    · rename_i hu; obtain ⟨_, _, _, h, _⟩ := h2 hu; exact h
  · have : out = bmp := by rw [h6 hflip, ← hlen, List.take_length]
    rw [← this]; exact h4

example : Spec.Fits exParams ∧ (exParams.format = .URF → UrfAble exParams) ∧ ¬ Flipped exParams 1 ∧
    exBmp.length = exParams.heightPx * rowBytes exParams.colorMode exParams.widthPx :=
  ⟨exParams_fits, fun h => absurd h (by decide), by unfold Flipped; decide, by decide⟩

/-- **C02** A whole PWG document is read back: as many pages, in order, with their geometry and pixels. -/
theorem C02_pwg_document (pages : List (Params × Nat × Bytes))
    (h : ∀ x ∈ pages, x.1.format ≠ .URF ∧ Spec.Fits x.1 ∧ Spec.bitsPerColor x.1.colorMode ≤ 8 ∧
      x.2.2.length = x.1.heightPx * rowBytes x.1.colorMode x.1.widthPx) :
    ∃ enc outs, encodePages pages = .ok enc ∧ readRaster (pwgFileHdr ++ enc) = .ok (.pwg outs) ∧
      All2 ShowsPwg pages outs := by
  obtain ⟨enc, outs, h1, h2, h3⟩ := readPwgPages_encodePages pages h
  refine ⟨enc, outs, h1, ?_, h3⟩
  unfold readRaster pwgFileHdr
  rw [matchBytes_append]
  simp only [h2, Outcome.bind_ok, Outcome.pure_eq]

example : ∀ x ∈ [(exParams, 1, exBmp), (exParams, 2, exBmp)], x.1.format ≠ .URF ∧ Spec.Fits x.1 ∧
    Spec.bitsPerColor x.1.colorMode ≤ 8 ∧ x.2.2.length = x.1.heightPx * rowBytes x.1.colorMode x.1.widthPx := by
  intro x hx
  simp only [List.mem_cons, List.not_mem_nil, or_false] at hx
  rcases hx with rfl | rfl <;> exact ⟨by decide, exParams_fits, by decide, by decide⟩

/-- **C02** The four bytes at the start of the file (PWG 5102.4, 4.3). -/
theorem C02_file_header : pwgFileHdr = [0x52, 0x61, 0x53, 0x32] := by decide

/-- **C03** The twelve bytes at the start of the file: a name that ends with a zero, and the number of pages. -/
theorem C03_file_header (count : Nat) (hc : count < 2 ^ 32) : ∃ a b c d : UInt8,
    urfFileHdr count = [0x55, 0x4e, 0x49, 0x52, 0x41, 0x53, 0x54, 0, a, b, c, d] ∧
    ((a.toNat * 256 + b.toNat) * 256 + c.toNat) * 256 + d.toNat = count := by
  refine ⟨UInt8.ofNat (count / 16777216), UInt8.ofNat (count / 65536), UInt8.ofNat (count / 256), UInt8.ofNat count, rfl, ?_⟩
  simp only [UInt8.toNat_ofNat']
  omega

/-- **C03** A whole URF document is read back, also with 16 bits per color. -/
theorem C03_urf_document (count : Nat) (hc : count < 2 ^ 32) (pages : List (Params × Nat × Bytes))
    (h : ∀ x ∈ pages, x.1.format = .URF ∧ UrfAble x.1 ∧ Spec.Fits x.1 ∧
      x.2.2.length = x.1.heightPx * rowBytes x.1.colorMode x.1.widthPx) :
    ∃ enc outs, encodePages pages = .ok enc ∧ readRaster (urfFileHdr count ++ enc) = .ok (.urf count outs) ∧
      All2 ShowsUrf pages outs := by
  obtain ⟨enc, outs, h1, h2, h3⟩ := readUrfPages_encodePages pages h
  refine ⟨enc, outs, h1, ?_, h3⟩
  unfold readRaster urfFileHdr
  have hno : matchBytes (ascii "RaS2") (ascii "UNIRAST" ++ (be8 0 ++ be32 count) ++ enc) = none := by
    unfold matchBytes
    rw [if_neg]
    simp [ascii, List.isPrefixOf]
  rw [hno]
  simp only [List.append_assoc, matchBytes_append]
  rw [show (be8 0 : Bytes) = [0] from rfl, matchBytes_append]
  simp only [rd32_be32, Outcome.bind_ok, h2, Outcome.pure_eq]
  rw [Nat.mod_eq_of_lt hc]

example : ∃ p : Params, p.format = .URF ∧ UrfAble p ∧ Spec.Fits p ∧ p.colorMode = .sRGB48 ∧ p.heightPx = 1 := by
  refine ⟨{ exParams with format := .URF, colorMode := .sRGB48, heightPx := 1, mediaType := ascii "labels" }, rfl, ?_, ?_, rfl, rfl⟩
  · exact ⟨rfl, ⟨1, Or.inl ⟨Or.inr rfl, rfl⟩⟩, ⟨5, Or.inr ⟨"labels", by decide, rfl⟩⟩⟩
  · constructor <;> decide

/-- **C04** What a reader decodes is the page transformed as the duplex mode and the printer's back transform demand. -/
theorem C04_backside_transform (p : Params) (page : Nat) (bmp : Bytes) (hf : Spec.Fits p)
    (hurf : p.format = .URF → UrfAble p)
    (hw : Spec.bitsPerPixel p.colorMode = 1 → 8 ∣ p.widthPx)
    (hlen : bmp.length = p.heightPx * rowBytes p.colorMode p.widthPx) :
    ∃ hdr body out, bmpToPwg p page bmp = .ok (hdr ++ body) ∧
      hdr.length = (if p.format = .URF then 32 else 1796) ∧
      (∀ (urf : Bool) (rest : Bytes),
        rasterToBmp (body ++ rest) (rowBytes p.colorMode p.widthPx) p.heightPx (unit p.colorMode) urf =
          .ok (out, rest)) ∧
      Transformed p.widthPx p.heightPx (rowBytes p.colorMode p.widthPx) (bitsPerPixel p.colorMode)
        (decide (IsBack p.duplexMode page) && mirrorH p.duplexMode p.backXformMode)
        (decide (IsBack p.duplexMode page) && mirrorV p.duplexMode p.backXformMode) bmp out := by
  obtain ⟨hdr, body, out, h1, h2, h3, h4, h5, h6, h7⟩ := bmpToPwg_spec p page bmp hf hurf (by omega)
  refine ⟨hdr, body, out, h1, ?_, h4, h7 ?_⟩
  · split
    · rename_i hu; obtain ⟨_, _, _, h, _⟩ := h3 hu; exact h
    · rename_i hu; obtain ⟨_, _, _, h, _⟩ := h2 hu; exact h
  · intro _ _
    by_cases h1 : Spec.bitsPerPixel p.colorMode = 1
    · rw [h1, Nat.mul_one]; exact hw h1
    · apply Nat.dvd_mul_left_of_dvd
      revert h1; cases p.colorMode <;> decide

example : Spec.Fits exParams ∧ IsBack exParams.duplexMode 2 ∧ mirrorH exParams.duplexMode exParams.backXformMode = true ∧
    (Spec.bitsPerPixel exParams.colorMode = 1 → 8 ∣ exParams.widthPx) :=
  ⟨exParams_fits, by decide, by decide, by decide⟩

/-- The parameters of the counterexample to C05: a 1-bit page, one pixel wide, back side mirrored left-right. -/
def badParams : Params :=
  { format := .PWG, colorMode := .Black1, widthPx := 1, heightPx := 1, duplexMode := .TwoSidedShortEdge,
    backXformMode := .Flipped }

/-- **C05** is false: a 1-bit page whose width is not a multiple of 8 is not mirrored about its own width. -/
theorem C05_mirror_1bit_false : ∃ (p : Params) (page : Nat) (bmp : Bytes), Spec.Fits p ∧
    Spec.bitsPerPixel p.colorMode = 1 ∧ p.format = .PWG ∧
    bmp.length = p.heightPx * rowBytes p.colorMode p.widthPx ∧
    IsBack p.duplexMode page ∧ mirrorH p.duplexMode p.backXformMode = true ∧
    mirrorV p.duplexMode p.backXformMode = false ∧
    ∃ hdr body out, bmpToPwg p page bmp = .ok (hdr ++ body) ∧ hdr.length = 1796 ∧
      rasterToBmp body (rowBytes p.colorMode p.widthPx) p.heightPx (unit p.colorMode) false = .ok (out, []) ∧
      ¬ Transformed p.widthPx p.heightPx (rowBytes p.colorMode p.widthPx) 1 true false bmp out := by
  have hf : Spec.Fits badParams := by constructor <;> decide
  refine ⟨badParams, 2, [128], hf, by decide, rfl, by decide, by decide, by decide, by decide, ?_⟩
  have henc : (match bmpToPwg badParams 2 [128] with
      | .ok enc => decide (enc.drop 1796 = [0, 0, 1] ∧ (enc.take 1796).length = 1796)
      | _ => false) = true := by
    decide +kernel
  split at henc
  rotate_left
  · cases henc
  rename_i enc h1
  simp only [decide_eq_true_eq] at henc
  obtain ⟨h2, h3⟩ := henc
  refine ⟨enc.take 1796, [0, 0, 1], [1], ?_, h3, ?_, ?_⟩
  · rw [h1, ← h2, List.take_append_drop]
  · decide +kernel
  · intro ht
    have := ht.2 0 (by decide) 0 (by decide) 0 (by decide)
    revert this
    decide

/-- **C05**, what holds: a mirrored 1-bit page is mirrored about the width rounded up to whole bytes. Missing for C05: the
padding bits are at the end of the line only if the width is a multiple of 8. -/
theorem C05_mirror_1bit_partial (p : Params) (page : Nat) (bmp : Bytes) (hf : Spec.Fits p)
    (hurf : p.format ≠ .URF) (h1 : Spec.bitsPerPixel p.colorMode = 1)
    (hlen : bmp.length = p.heightPx * rowBytes p.colorMode p.widthPx) :
    ∃ hdr body out, bmpToPwg p page bmp = .ok (hdr ++ body) ∧ hdr.length = 1796 ∧
      (∀ (urf : Bool) (rest : Bytes),
        rasterToBmp (body ++ rest) (rowBytes p.colorMode p.widthPx) p.heightPx (unit p.colorMode) urf =
          .ok (out, rest)) ∧
      Transformed (8 * rowBytes p.colorMode p.widthPx) p.heightPx (rowBytes p.colorMode p.widthPx) 1
        (decide (IsBack p.duplexMode page) && mirrorH p.duplexMode p.backXformMode)
        (decide (IsBack p.duplexMode page) && mirrorV p.duplexMode p.backXformMode) bmp out := by
  obtain ⟨hdr, body, out, g1, g2, g3, g4, g5, g6, g7⟩ := bmpToPwg_spec p page bmp hf (fun h => absurd h hurf) (by omega)
  obtain ⟨hd, hh, he, hl, _⟩ := g2 hurf
  -- the same rows, seen as a page whose width is rounded up
  let q : Params := { p with widthPx := 8 * rowBytes p.colorMode p.widthPx }
  have hrow : rowBytes q.colorMode q.widthPx = rowBytes p.colorMode p.widthPx := by
    show rowBytes p.colorMode (8 * rowBytes p.colorMode p.widthPx) = rowBytes p.colorMode p.widthPx
    generalize rowBytes p.colorMode p.widthPx = r
    unfold rowBytes; rw [h1]; omega
  obtain ⟨body', out', k1, k2, k3, k4, k5⟩ := page_core q bmp
    (decide (IsBack p.duplexMode page) && mirrorH p.duplexMode p.backXformMode)
    (decide (IsBack p.duplexMode page) && mirrorV p.duplexMode p.backXformMode)
    (by have := hf.height; show p.heightPx < 2 ^ 64; omega) (by rw [hrow]; show p.heightPx * _ ≤ _; omega)
  rw [hrow] at k1 k2 k5
  have hsame : body' = body := by
    unfold bmpToPwg at g1
    have hp : pageHdr p (isBackside p page) = .ok hd.encode := by unfold pageHdr; rw [if_pos hurf, hh]; rfl
    simp only [hp, Outcome.bind_ok, Outcome.pure_eq, widthBytes_eq] at g1
    rw [if_neg (by omega), backHFlip_eq, backVFlip_eq, isBackside_eq, oneChunk_eq] at g1
    have k1' : encodeRows p.bitsPerColor (unit p.colorMode)
      (decide (IsBack p.duplexMode page) && mirrorH p.duplexMode p.backXformMode)
      (rowsOf bmp p.heightPx (rowBytes p.colorMode p.widthPx)
        (decide (IsBack p.duplexMode page) && mirrorV p.duplexMode p.backXformMode)) = .ok body' := k1
    rw [k1'] at g1
    simp only [Outcome.bind_ok, Outcome.ok.injEq, ← he] at g1
    exact List.append_cancel_left g1
  subst hsame
  refine ⟨hdr, body', out', g1, hl, k2, ?_⟩
  have := k5 (fun _ => by
    show 8 ∣ 8 * rowBytes p.colorMode p.widthPx * bitsPerPixel p.colorMode
    rw [Nat.mul_assoc]; exact Nat.dvd_mul_right _ _)
  have hq : bitsPerPixel q.colorMode = 1 := h1
  rw [hq] at this
  exact this

example : ∃ p : Params, Spec.Fits p ∧ p.format ≠ .URF ∧ Spec.bitsPerPixel p.colorMode = 1 ∧ ¬ 8 ∣ p.widthPx :=
  ⟨badParams, by constructor <;> decide, by decide, by decide, by decide⟩

/-- **C06** The PWG page header has 1796 bytes, and its fields, found at the offsets of the standard, describe the body: a reader which
takes line length and height from the header decodes the body to its end. -/
theorem C06_pwg_header (p : Params) (page : Nat) (bmp : Bytes) (hf : Spec.Fits p) (hfm : p.format ≠ .URF)
    (hlen : bmp.length = p.heightPx * rowBytes p.colorMode p.widthPx) :
    ∃ hdr body out, bmpToPwg p page bmp = .ok (hdr ++ body) ∧ hdr.length = 1796 ∧
      PwgHeaderAt hdr p page ∧
      ∀ rest, rasterToBmp (body ++ rest) (u32At hdr 392) (u32At hdr 376)
        ((u32At hdr 388 + 7) / 8) false = .ok (out, rest) ∧ out.length = u32At hdr 376 * u32At hdr 392 := by
  obtain ⟨hdr, body, out, h1, h2, h3, h4, h5, h6, h7⟩ := bmpToPwg_spec p page bmp hf (fun h => absurd h hfm) (by omega)
  obtain ⟨hd, hh, he, hl, hat⟩ := h2 hfm
  refine ⟨hdr, body, out, h1, hl, hat, ?_⟩
  intro rest
  rw [hat.bytesPerLine, hat.height, hat.bitsPerPixel]
  exact ⟨h4 false rest, h5⟩

example : Spec.Fits exParams ∧ exParams.format ≠ .URF ∧
    exBmp.length = exParams.heightPx * rowBytes exParams.colorMode exParams.widthPx :=
  ⟨exParams_fits, by decide, by decide⟩

/-- **C06**, decoding: every field of every header that fits comes back, and what follows the header is left. -/
theorem C06_pwg_header_decode (h : PwgHdr) (hf : h.Fits) (rest : Bytes) :
    h.encode.length = 1796 ∧ PwgHdr.decode (h.encode ++ rest) = .ok (h, rest) :=
  ⟨PwgHdr.encode_length h hf, PwgHdr.decode_encode h hf rest⟩

example : ∃ h : PwgHdr, h.Fits ∧ h.Width = 3 ∧ h.CrossFeedTransform = -1 := by
  obtain ⟨h, h1, h2⟩ := makePwgHdr_ok exParams true
  exact ⟨h, PwgHdr.fits_of _ _ exParams_fits h h1, by rw [h2]; rfl, by rw [h2]; rfl⟩

/-- **C07** The transform fields of the header are -1 exactly if the pixels were mirrored in that direction. -/
theorem C07_transform_fields (p : Params) (page : Nat) (bmp : Bytes) (hf : Spec.Fits p) (hfm : p.format ≠ .URF)
    (hw : Spec.bitsPerPixel p.colorMode = 1 → 8 ∣ p.widthPx)
    (hlen : bmp.length = p.heightPx * rowBytes p.colorMode p.widthPx) :
    ∃ hdr body out, bmpToPwg p page bmp = .ok (hdr ++ body) ∧ hdr.length = 1796 ∧
      (u32At hdr 456 = 1 ∨ u32At hdr 456 = minusOne) ∧ (u32At hdr 460 = 1 ∨ u32At hdr 460 = minusOne) ∧
      (¬ IsBack p.duplexMode page → u32At hdr 456 = 1 ∧ u32At hdr 460 = 1) ∧
      (∀ rest, rasterToBmp (body ++ rest) (rowBytes p.colorMode p.widthPx) p.heightPx (unit p.colorMode) false =
          .ok (out, rest)) ∧
      Transformed p.widthPx p.heightPx (rowBytes p.colorMode p.widthPx) (bitsPerPixel p.colorMode)
        (u32At hdr 456 == minusOne) (u32At hdr 460 == minusOne) bmp out := by
  obtain ⟨hdr, body, out, h1, h2, h3, h4, h5, h6, h7⟩ := bmpToPwg_spec p page bmp hf (fun h => absurd h hfm) (by omega)
  obtain ⟨hd, hh, he, hl, hat⟩ := h2 hfm
  have hc := hat.crossFeed
  have hfd := hat.feed
  refine ⟨hdr, body, out, h1, hl, ?_, ?_, ?_, h4 false, ?_⟩
  · rw [hc]; split
    · exact Or.inr rfl
    · exact Or.inl rfl
  · rw [hfd]; split
    · exact Or.inr rfl
    · exact Or.inl rfl
  · intro hb
    rw [hc, hfd, if_neg (fun h => hb h.1), if_neg (fun h => hb h.1)]
    exact ⟨rfl, rfl⟩
  · have e1 : (u32At hdr 456 == minusOne) =
        (decide (IsBack p.duplexMode page) && mirrorH p.duplexMode p.backXformMode) := by
      rw [hc]
      by_cases hb : IsBack p.duplexMode page <;> cases mirrorH p.duplexMode p.backXformMode <;>
        simp [hb, minusOne]
    have e2 : (u32At hdr 460 == minusOne) =
        (decide (IsBack p.duplexMode page) && mirrorV p.duplexMode p.backXformMode) := by
      rw [hfd]
      by_cases hb : IsBack p.duplexMode page <;> cases mirrorV p.duplexMode p.backXformMode <;>
        simp [hb, minusOne]
    rw [e1, e2]
    apply h7
    intro _ _
    by_cases h1 : Spec.bitsPerPixel p.colorMode = 1
    · rw [h1, Nat.mul_one]; exact hw h1
    · apply Nat.dvd_mul_left_of_dvd
      revert h1; cases p.colorMode <;> decide

example : Spec.Fits exParams ∧ exParams.format ≠ .URF ∧ IsBack exParams.duplexMode 2 ∧ ¬ IsBack exParams.duplexMode 3 :=
  ⟨exParams_fits, by decide, by decide, by decide⟩

/-- **C08** A compressed line consists of repeat records (0..127) and literal records (130..255) of whole units, and is at most a third of a byte
per unit longer than the line (rounded up). -/
theorem C08_opcodes_and_size (c n : Nat) (hc : 0 < c) (line : Bytes) (h : line.length = n * c) :
    ∃ enc, compressLine c line = .ok enc ∧ Records c enc ∧ enc.length ≤ line.length + (n + 2) / 3 := by
  obtain ⟨enc, h1, h2, h3⟩ := compressLine_size c hc n line h
  exact ⟨enc, h1, h2, by omega⟩

example : (0 < 3) ∧ exBmp.length = 6 * 3 := by decide

/-- **C08**, the bound is attained (units that alternate between single and double). -/
theorem C08_size_bound_attained : ∃ (c n : Nat) (line enc : Bytes), 0 < c ∧ line.length = n * c ∧ n = 7 ∧
    compressLine c line = .ok enc ∧ enc.length = line.length + (n + 2) / 3 := by
  refine ⟨1, 7, [1, 2, 2, 3, 4, 4, 5], [0, 1, 1, 2, 0, 3, 1, 4, 0, 5], by decide, by decide, rfl, ?_, by decide⟩
  decide +kernel

/-- **C08**, whole pages: the body of a page consists of a count byte and such a line per group of equal rows, these groups cover
exactly the height of the page, and the body's size is bounded. -/
theorem C08_page_opcodes_and_size (p : Params) (page : Nat) (bmp : Bytes) (hf : Spec.Fits p)
    (hurf : p.format = .URF → UrfAble p)
    (hlen : bmp.length = p.heightPx * rowBytes p.colorMode p.widthPx) :
    ∃ hdr body, bmpToPwg p page bmp = .ok (hdr ++ body) ∧
      hdr.length = (if p.format = .URF then 32 else 1796) ∧
      BodyRecords (unit p.colorMode) p.heightPx body ∧
      3 * body.length ≤ 3 * bmp.length + p.heightPx * (rowBytes p.colorMode p.widthPx / unit p.colorMode + 5) := by
  obtain ⟨hdr, body, out, h1, h2, h3, h4, h5, h6, h7⟩ := bmpToPwg_spec p page bmp hf hurf (by omega)
  refine ⟨hdr, body, h1, ?_, ?_⟩
  · split
    · rename_i hu; obtain ⟨_, _, _, h, _⟩ := h3 hu; exact h
    · rename_i hu; obtain ⟨_, _, _, h, _⟩ := h2 hu; exact h
  · obtain ⟨n, hn⟩ := rowBytes_units p.colorMode p.widthPx
    have hup := unit_pos p.colorMode
    obtain ⟨hdr', hhdr, hlen'⟩ : ∃ hdr', pageHdr p (isBackside p page) = .ok hdr' ∧ hdr'.length = hdr.length := by
      unfold pageHdr
      by_cases hu : p.format = .URF
      · obtain ⟨hd, g1, g2, g3, _⟩ := h3 hu
        rw [if_neg (by simpa using hu), g1]
        exact ⟨_, rfl, by rw [← g2]⟩
      · obtain ⟨hd, g1, g2, g3, _⟩ := h2 hu
        rw [if_pos hu, g1]
        exact ⟨_, rfl, by rw [← g2]⟩
    have hrl : ∀ v, ∀ r ∈ rowsOf bmp p.heightPx (rowBytes p.colorMode p.widthPx) v,
        r.length = rowBytes p.colorMode p.widthPx := fun v r hr => rowsOf_mem hr (by omega)
    obtain ⟨enc, he1, he2, he3⟩ := encodeRows_size p.bitsPerColor (unit p.colorMode) hup (isBackside p page && p.backHFlip)
      (flipFun p.bitsPerColor (unit p.colorMode) (isBackside p page && p.backHFlip)) n
      (rowsOf bmp p.heightPx (rowBytes p.colorMode p.widthPx) (isBackside p page && p.backVFlip)) (by
        intro r hr
        have := lineData_ok p (isBackside p page && p.backHFlip) r (hrl _ r hr)
        exact ⟨this.1, by rw [this.2.1, hrl _ r hr, hn]⟩)
    have hsame : enc = body := by
      unfold bmpToPwg at h1
      simp only [hhdr, Outcome.bind_ok, widthBytes_eq] at h1
      rw [if_neg (by omega), oneChunk_eq, he1] at h1
      simp only [Outcome.bind_ok, Outcome.pure_eq, Outcome.ok.injEq] at h1
      exact (List.append_inj h1 hlen').2
    subst hsame
    have hh : (rowsOf bmp p.heightPx (rowBytes p.colorMode p.widthPx) (isBackside p page && p.backVFlip)).length =
        p.heightPx := by simp [rowsOf]
    rw [hh] at he2 he3
    refine ⟨he2, ?_⟩
    have hdiv : rowBytes p.colorMode p.widthPx / unit p.colorMode = n := by
      rw [hn]; exact Nat.mul_div_cancel n hup
    rw [hdiv, hlen]
    rw [← hn] at he3
    calc 3 * enc.length ≤ p.heightPx * (3 * rowBytes p.colorMode p.widthPx + n + 5) := he3
      _ = 3 * (p.heightPx * rowBytes p.colorMode p.widthPx) + p.heightPx * (n + 5) := by
        rw [Nat.add_assoc, Nat.mul_add, Nat.mul_left_comm]

example : Spec.Fits exParams ∧ (exParams.format = .URF → UrfAble exParams) :=
  ⟨exParams_fits, fun h => absurd h (by decide)⟩

/-- **C09** is false: a fill code in a line whose rest is not a multiple of the white pixel never ends. -/
theorem C09_decoding_ends_false : ∃ (file : Bytes) (byteWidth height colors : Nat),
    rasterToBmp file byteWidth height colors true = .hang := by
  refine ⟨[0, 128], 4, 1, 3, ?_⟩
  decide +kernel

/-- **C09** is false even if the header is consistent (here: one gray pixel per line): a run which is longer than the line,
followed by a fill code, never ends. -/
theorem C09_decoding_ends_consistent_header_false : ∃ (file : Bytes) (width height colors : Nat), 0 < colors ∧
    rasterToBmp file (width * colors) height colors true = .hang := by
  refine ⟨[0, 1, 7, 128], 1, 1, 1, by decide, ?_⟩
  decide +kernel

/-- **C09**, what holds: decoding ends, with a result or an exception, for every PWG stream, and for URF streams in which the byte 128 does not
occur. Missing: URF streams with fill codes. -/
theorem C09_decoding_ends_partial (file : Bytes) (byteWidth height colors : Nat) (urf : Bool)
    (h : urf = true → (128 : UInt8) ∉ file) :
    (∃ x, rasterToBmp file byteWidth height colors urf = .ok x) ∨
    ∃ e, rasterToBmp file byteWidth height colors urf = .throws e :=
  decodeRows_ends colors byteWidth urf height [] file h

example : false = true → (128 : UInt8) ∉ [0, 128, 3] := by decide

/-- **C09**, results: whatever is decoded consists of exactly the announced number of lines (the file being smaller than
2^55 bytes). -/
theorem C09_result_size (file : Bytes) (byteWidth height colors : Nat) (urf : Bool) (out rest : Bytes)
    (hh : height < 2 ^ 64) (hf : file.length < 2 ^ 55)
    (h : rasterToBmp file byteWidth height colors urf = .ok (out, rest)) : out.length = height * byteWidth := by
  have := decodeRows_size colors byteWidth urf height [] file (out, rest) h (Or.inr hh) hf
  simpa using this.1

example : rasterToBmp [1, 1, 7, 9] 2 2 1 false = .ok ([7, 7, 7, 7], [9]) := by
  decide +kernel

/-- The parameters of the counterexample to C10: one pixel of 16-bit gray. -/
def gray16Params : Params := { format := .PWG, colorMode := .Gray16, widthPx := 1, heightPx := 1 }

/-- **C10** is false: pwg2ppm cannot read the 16-bit PWG page that bmp_to_pwg writes. -/
theorem C10_pwg16_false : ∃ (p : Params) (bmp enc : Bytes), Spec.Fits p ∧ p.format = .PWG ∧ p.colorMode = .Gray16 ∧
    bmp.length = p.heightPx * rowBytes p.colorMode p.widthPx ∧
    bmpToPwg p 1 bmp = .ok enc ∧ readRaster (pwgFileHdr ++ enc) = .throws .outOfRange := by
  have hf : Spec.Fits gray16Params := by constructor <;> decide
  have henc : (match bmpToPwg gray16Params 1 [0, 0] with
      | .ok enc => decide (readRaster (pwgFileHdr ++ enc) = .throws .outOfRange)
      | _ => false) = true := by
    decide +kernel
  split at henc
  rotate_left
  · cases henc
  rename_i enc h1
  exact ⟨gray16Params, [0, 0], enc, hf, rfl, rfl, by decide, h1, by simpa using henc⟩

/-- **C10**, what holds: the 16-bit page is decoded if the unit is taken from BitsPerPixel instead of NumColors. Missing: pwg2ppm does not do this. -/
theorem C10_pwg16_partial (p : Params) (page : Nat) (bmp : Bytes) (hf : Spec.Fits p) (hfm : p.format ≠ .URF)
    (h16 : Spec.bitsPerColor p.colorMode = 16) (hflip : ¬ Flipped p page)
    (hlen : bmp.length = p.heightPx * rowBytes p.colorMode p.widthPx) :
    ∃ hdr body, bmpToPwg p page bmp = .ok (hdr ++ body) ∧ hdr.length = 1796 ∧
      ∀ rest, rasterToBmp (body ++ rest) (u32At hdr 392) (u32At hdr 376) (u32At hdr 388 / 8) false =
        .ok (bmp, rest) := by
  obtain ⟨hdr, body, out, h1, h2, h3, h4, h5, h6, h7⟩ := bmpToPwg_spec p page bmp hf (fun h => absurd h hfm) (by omega)
  obtain ⟨hd, hh, he, hl, hat⟩ := h2 hfm
  refine ⟨hdr, body, h1, hl, ?_⟩
  intro rest
  rw [hat.bytesPerLine, hat.height, hat.bitsPerPixel]
  have : out = bmp := by rw [h6 hflip, ← hlen, List.take_length]
  have hu : Spec.bitsPerPixel p.colorMode / 8 = unit p.colorMode := by
    revert h16; unfold Spec.bitsPerColor unit; cases p.colorMode <;> decide
  rw [hu, ← this]
  exact h4 false rest

example : Spec.Fits gray16Params ∧ Spec.bitsPerColor gray16Params.colorMode = 16 ∧ ¬ Flipped gray16Params 1 :=
  ⟨by constructor <;> decide, by decide, by unfold Flipped; decide⟩

/-- **C11** A URF page is written, with a header that says what the parameters say, exactly if URF can express them; otherwise an exception
is thrown and there is no page. -/
theorem C11_urf_expressible (p : Params) (page : Nat) (bmp : Bytes) (hf : Spec.Fits p) (hfm : p.format = .URF)
    (hlen : bmp.length = p.heightPx * rowBytes p.colorMode p.widthPx) :
    (UrfAble p → ∃ hdr body, bmpToPwg p page bmp = .ok (hdr ++ body) ∧ hdr.length = 32 ∧ UrfHeaderAt hdr p) ∧
    (¬ UrfAble p → ∃ e, bmpToPwg p page bmp = .throws e) := by
  constructor
  · intro ha
    obtain ⟨hdr, body, out, h1, h2, h3, h4, h5, h6, h7⟩ := bmpToPwg_spec p page bmp hf (fun _ => ha) (by omega)
    obtain ⟨hd, _, _, hl, hat⟩ := h3 hfm
    exact ⟨hdr, body, h1, hl, hat⟩
  · intro ha
    obtain ⟨e, he⟩ := makeUrfHdr_throws p ha
    refine ⟨e, ?_⟩
    have hp : pageHdr p (isBackside p page) = .throws e := by
      unfold pageHdr; rw [if_neg (by simpa using hfm), he]; rfl
    unfold bmpToPwg
    simp only [hp]
    rfl

example : (∃ p : Params, Spec.Fits p ∧ p.format = .URF ∧ UrfAble p) ∧ ∃ p : Params, Spec.Fits p ∧ p.format = .URF ∧ ¬ UrfAble p := by
  refine ⟨⟨{ exParams with format := .URF }, ?_, rfl, ?_⟩, ⟨{ exParams with format := .URF, colorMode := .Black1 }, ?_, rfl, ?_⟩⟩
  · constructor <;> decide
  · exact ⟨rfl, ⟨1, Or.inl ⟨Or.inl rfl, rfl⟩⟩, ⟨0, Or.inl ⟨rfl, rfl⟩⟩⟩
  · constructor <;> decide
  · rintro ⟨-, ⟨n, hn⟩, -⟩
    unfold urfColorNumber at hn
    revert hn; simp

/-- The page that shows that C13 is false: three gray pixels, the first of which has the code of '#', the second that of a newline. -/
def hashPage : PnmPage :=
  { kind := .pgm8, comments := [], width := 3, sep1 := [32], height := 1, sep2 := [10], last := 10,
    pixels := [35, 10, 65] }

/-- A second page. -/
def plainPage : PnmPage := { hashPage with pixels := [1, 2, 3] }

theorem hashPage_wf : hashPage.Wf := by constructor <;> decide

/-- **C13** is false: pixels which look like a comment are dropped, and bytes of the next page are taken instead. -/
theorem C13_pnm_pixels_false : ∃ (g₁ g₂ : PnmPage) (p : Params), g₁.Wf ∧ g₂.Wf ∧ g₁.last = 10 ∧ g₂.last = 10 ∧
    (readPnm (fun _ _ => 1) p 1 (g₁.bytes ++ g₂.bytes)).1.map (fun x => x.2.2) ≠ [g₁.pixels, g₂.pixels] :=
  ⟨hashPage, plainPage, {}, hashPage_wf, by constructor <;> decide, rfl, rfl, by decide +kernel⟩

/-- **C13** is also false for pictures whose header ends in a white space character other than a newline (which the format allows): that
character becomes the first pixel. -/
theorem C13_pnm_last_space_false : ∃ (g : PnmPage) (p : Params), g.Wf ∧ g.pixels.head? ≠ some 35 ∧
    (readPnm (fun _ _ => 1) p 1 g.bytes).1.map (fun x => x.2.2) ≠ [g.pixels] :=
  ⟨{ plainPage with last := 32 }, {}, by constructor <;> decide, by decide, by decide +kernel⟩

/-- **C13**, what holds: for all well-formed pictures whose header ends in a newline and whose pixels do not begin with the code of '#', the encoder gets
exactly the pixels of each page, with its size and color mode, in order, with page numbers counted from the given one. Missing: pixels that
begin with '#', and headers that end in another white space character. -/
theorem C13_pnm_pixels_partial (pt : Nat → Nat → Nat) (gs : List PnmPage) (hne : gs ≠ [])
    (h : ∀ g ∈ gs, g.Wf ∧ g.last = 10 ∧ g.pixels.head? ≠ some 35) (page : Nat) (p : Params)
    (hurf : ∀ g ∈ gs, g.kind = .pbm → p.format ≠ .URF) :
    ∃ pages, readPnm pt p page (gs.map PnmPage.bytes).flatten = (pages, .done) ∧
      pages.map (fun x => x.2.1) = (List.range gs.length).map (page + ·) ∧
      pages.map (fun x => x.2.2) = gs.map PnmPage.pixels ∧
      pages.map (fun x => x.1) = gs.map (PnmPage.params pt p) :=
  readPnm_pages pt gs hne h page p hurf

example : ∀ g ∈ [plainPage, plainPage], g.Wf ∧ g.last = 10 ∧ g.pixels.head? ≠ some 35 := by
  intro g hg
  have : g = plainPage := by simpa using hg
  subst this
  exact ⟨by constructor <;> decide, rfl, by decide⟩

/-- **C18** A row takes the least number of whole bytes that holds its pixels, a page that many times its height. -/
theorem C18_row_bytes (p : Params) : ∃ n, p.widthBytes = .ok n ∧
    p.widthPx * (p.numberOfColors * p.bitsPerColor) ≤ 8 * n ∧
    (∀ m, p.widthPx * (p.numberOfColors * p.bitsPerColor) ≤ 8 * m → n ≤ m) ∧
    p.sizeInBytes = .ok (n * p.heightPx) ∧
    p.numberOfColors = Spec.colors p.colorMode ∧ p.bitsPerColor = Spec.bitsPerColor p.colorMode ∧
    p.numberOfColors * p.bitsPerColor = Spec.bitsPerPixel p.colorMode := by
  refine ⟨rowBytes p.colorMode p.widthPx, widthBytes_eq p, ?_, ?_, ?_, ?_, ?_, bpp_eq p⟩
  · rw [bpp_eq]; unfold rowBytes; omega
  · intro m hm; rw [bpp_eq] at hm; unfold rowBytes; omega
  · unfold Params.sizeInBytes; rw [widthBytes_eq]; rfl
  · unfold Params.numberOfColors Spec.colors; cases p.colorMode <;> rfl
  · unfold Params.bitsPerColor Spec.bitsPerColor; cases p.colorMode <;> rfl

example : Params.widthBytes { exParams with colorMode := .Black1, widthPx := 9 } = .ok 2 := by decide

end Verif.Raster
