import Verif.Raster.PageCore

/-! # Helper lemmas: header fields at byte offsets -/

namespace Verif.Raster

open Spec

theorem getD_append_skip (x r : Bytes) (o : Nat) (h : x.length ≤ o) :
    (x ++ r).getD o 0 = r.getD (o - x.length) 0 := by
  simp only [List.getD_eq_getElem?_getD]
  rw [List.getElem?_append_right h]

theorem u32At_skip (x r : Bytes) (o : Nat) (h : x.length ≤ o) :
    u32At (x ++ r) o = u32At r (o - x.length) := by
  unfold u32At
  rw [getD_append_skip _ _ _ h, getD_append_skip _ _ _ (by omega), getD_append_skip _ _ _ (by omega),
    getD_append_skip _ _ _ (by omega)]
  rw [show o + 1 - x.length = o - x.length + 1 by omega, show o + 2 - x.length = o - x.length + 2 by omega,
    show o + 3 - x.length = o - x.length + 3 by omega]

theorem u32At_putStr (s r : Bytes) (o : Nat) (hs : s.length ≤ 64) (h : 64 ≤ o) :
    u32At (putStr 64 s ++ r) o = u32At r (o - 64) := by
  rw [u32At_skip _ _ _ (by rw [putStr_length _ _ hs]; exact h), putStr_length _ _ hs]

theorem u32At_padding (n : Nat) (r : Bytes) (o : Nat) (h : n ≤ o) :
    u32At (padding n ++ r) o = u32At r (o - n) := by
  rw [u32At_skip _ _ _ (by rw [padding_length]; exact h), padding_length]

theorem u32At_be32_skip (n : Nat) (r : Bytes) (o : Nat) (h : 4 ≤ o) :
    u32At (be32 n ++ r) o = u32At r (o - 4) := by
  rw [u32At_skip _ _ _ (by simpa using h), be32_length]

theorem u32At_be8_skip (n : Nat) (r : Bytes) (o : Nat) (h : 1 ≤ o) :
    u32At (be8 n ++ r) o = u32At r (o - 1) := by
  rw [u32At_skip _ _ _ (by simpa using h), be8_length]

theorem u32At_be32 (n : Nat) (r : Bytes) (h : n < 2 ^ 32) : u32At (be32 n ++ r) 0 = n := by
  unfold u32At be32
  simp
  omega

theorem u8At_be8 (n : Nat) (r : Bytes) (h : n < 256) : u8At (be8 n ++ r) 0 = n := by
  unfold u8At be8
  simp
  omega

theorem u8At_be8_skip (n : Nat) (r : Bytes) (o : Nat) (h : 1 ≤ o) :
    u8At (be8 n ++ r) o = u8At r (o - 1) := by
  unfold u8At
  rw [getD_append_skip _ _ _ (by simpa using h), be8_length]

theorem StrAt_skip (x r : Bytes) (o : Nat) (s : Bytes) (h : x.length ≤ o) :
    StrAt (x ++ r) o s ↔ StrAt r (o - x.length) s := by
  unfold StrAt
  rw [List.drop_append, List.drop_eq_nil_of_le h, List.nil_append]

theorem StrAt_putStr (x r : Bytes) (o : Nat) (s : Bytes) (hs : x.length ≤ 64) (h : 64 ≤ o) :
    StrAt (putStr 64 x ++ r) o s ↔ StrAt r (o - 64) s := by
  rw [StrAt_skip _ _ _ _ (by rw [putStr_length _ _ hs]; exact h), putStr_length _ _ hs]

theorem StrAt_padding (n : Nat) (r : Bytes) (o : Nat) (s : Bytes) (h : n ≤ o) :
    StrAt (padding n ++ r) o s ↔ StrAt r (o - n) s := by
  rw [StrAt_skip _ _ _ _ (by rw [padding_length]; exact h), padding_length]

theorem StrAt_be32 (n : Nat) (r : Bytes) (o : Nat) (s : Bytes) (h : 4 ≤ o) :
    StrAt (be32 n ++ r) o s ↔ StrAt r (o - 4) s := by
  rw [StrAt_skip _ _ _ _ (by simpa using h), be32_length]

theorem StrAt_here (s r : Bytes) (hs : s.length ≤ 64) : StrAt (putStr 64 s ++ r) 0 s := by
  unfold StrAt
  rw [List.drop_zero, List.take_append_of_le_length (by rw [putStr_length _ _ hs]; omega)]
  rw [List.take_of_length_le (by rw [putStr_length _ _ hs]; omega)]
  rfl

theorem ZerosAt_skip (x r : Bytes) (o n : Nat) (h : x.length ≤ o) :
    ZerosAt (x ++ r) o n ↔ ZerosAt r (o - x.length) n := by
  unfold ZerosAt
  rw [List.drop_append, List.drop_eq_nil_of_le h, List.nil_append]

theorem ZerosAt_putStr (x r : Bytes) (o n : Nat) (hs : x.length ≤ 64) (h : 64 ≤ o) :
    ZerosAt (putStr 64 x ++ r) o n ↔ ZerosAt r (o - 64) n := by
  rw [ZerosAt_skip _ _ _ _ (by rw [putStr_length _ _ hs]; exact h), putStr_length _ _ hs]

theorem ZerosAt_padding (k : Nat) (r : Bytes) (o n : Nat) (h : k ≤ o) :
    ZerosAt (padding k ++ r) o n ↔ ZerosAt r (o - k) n := by
  rw [ZerosAt_skip _ _ _ _ (by rw [padding_length]; exact h), padding_length]

theorem ZerosAt_be32 (k : Nat) (r : Bytes) (o n : Nat) (h : 4 ≤ o) :
    ZerosAt (be32 k ++ r) o n ↔ ZerosAt r (o - 4) n := by
  rw [ZerosAt_skip _ _ _ _ (by simpa using h), be32_length]

theorem ZerosAt_be8 (k : Nat) (r : Bytes) (o n : Nat) (h : 1 ≤ o) :
    ZerosAt (be8 k ++ r) o n ↔ ZerosAt r (o - 1) n := by
  rw [ZerosAt_skip _ _ _ _ (by simpa using h), be8_length]

theorem ZerosAt_join (x r : Bytes) (n : Nat) (hx : x = List.replicate x.length 0) (hn : x.length ≤ n)
    (h : ZerosAt r 0 (n - x.length)) : ZerosAt (x ++ r) 0 n := by
  unfold ZerosAt at *
  rw [List.drop_zero] at *
  rw [List.take_append, List.take_of_length_le hn, h]
  conv => lhs; arg 1; rw [hx]
  rw [List.replicate_append_replicate]
  congr 1; omega

theorem ZerosAt_none (r : Bytes) : ZerosAt r 0 0 := by simp [ZerosAt]

theorem ZerosAt_pad (k : Nat) (r : Bytes) (n : Nat) (hn : k ≤ n) (h : ZerosAt r 0 (n - k)) :
    ZerosAt (padding k ++ r) 0 n := by
  apply ZerosAt_join _ _ _ (by simp [padding]) (by simpa [padding] using hn)
  simpa [padding] using h

theorem ZerosAt_zero32 (r : Bytes) (n : Nat) (hn : 4 ≤ n) (h : ZerosAt r 0 (n - 4)) :
    ZerosAt (be32 0 ++ r) 0 n :=
  ZerosAt_join _ _ _ (by decide) (by simpa using hn) (by simpa using h)

theorem ZerosAt_empty (r : Bytes) (n : Nat) (hn : 64 ≤ n) (h : ZerosAt r 0 (n - 64)) :
    ZerosAt (putStr 64 [] ++ r) 0 n :=
  ZerosAt_join _ _ _ (by decide) hn h

/-- The header record that `make_pwg_hdr` builds. -/
theorem makePwgHdr_ok (p : Params) (b : Bool) : ∃ h, makePwgHdr p b = .ok h ∧
    h = { MediaType := p.mediaType
          Duplex := if p.duplexMode = .OneSided then 0 else 1
          HWResolutionX := p.hwResW
          HWResolutionY := p.hwResH
          MediaPosition := p.mediaPosition
          NumCopies := 1
          PageSizeX := p.widthPt
          PageSizeY := p.heightPt
          Tumble := if p.duplexMode = .TwoSidedShortEdge then 1 else 0
          Width := p.widthPx
          Height := p.heightPx
          BitsPerColor := Spec.bitsPerColor p.colorMode
          BitsPerPixel := Spec.bitsPerPixel p.colorMode
          BytesPerLine := rowBytes p.colorMode p.widthPx
          ColorSpace := Spec.colorSpace p.colorMode
          NumColors := Spec.colors p.colorMode
          TotalPageCount := 0
          CrossFeedTransform := if b && mirrorH p.duplexMode p.backXformMode then -1 else 1
          FeedTransform := if b && mirrorV p.duplexMode p.backXformMode then -1 else 1
          AlternatePrimary := 0x00ffffff
          PrintQuality := p.quality.toNat
          PageSizeName := p.paperSizeName } := by
  refine ⟨_, ?_, rfl⟩
  unfold makePwgHdr
  rw [widthBytes_eq, Outcome.bind_ok, Outcome.pure_eq]
  congr 1
  have h1 : p.isTwoSided.toNat = if p.duplexMode = .OneSided then 0 else 1 := by
    unfold Params.isTwoSided; cases p.duplexMode <;> rfl
  have h2 : (p.duplexMode == DuplexMode.TwoSidedShortEdge).toNat =
      if p.duplexMode = .TwoSidedShortEdge then 1 else 0 := by
    cases p.duplexMode <;> rfl
  have h3 : p.bitsPerColor = Spec.bitsPerColor p.colorMode := by
    unfold Params.bitsPerColor Spec.bitsPerColor; cases p.colorMode <;> rfl
  have h4 : p.numberOfColors = Spec.colors p.colorMode := by
    unfold Params.numberOfColors Spec.colors; cases p.colorMode <;> rfl
  have h5 : pwgColorSpace p.colorMode = Spec.colorSpace p.colorMode := by
    unfold pwgColorSpace Spec.colorSpace; cases p.colorMode <;> rfl
  have h6 := bpp_eq p
  rw [h1, h2, h6, h3, h4, h5, backHFlip_eq, backVFlip_eq]

theorem PwgHdr.fits_of (p : Params) (b : Bool) (hf : Spec.Fits p) (h : PwgHdr) (hh : makePwgHdr p b = .ok h) :
    h.Fits := by
  obtain ⟨h', h1, h2⟩ := makePwgHdr_ok p b
  rw [h1] at hh
  cases hh
  subst h2
  have e0 : Str64 [] := by decide
  have eb : ∀ c : Bool, (-2147483648 : Int) ≤ (if c then -1 else 1) ∧ (if c then -1 else 1 : Int) < 2147483648 := by
    decide
  constructor
  case PwgRaster => show Str64 (ascii "PwgRaster"); decide
  case MediaType => exact hf.mediaType
  case PageSizeName => exact hf.sizeName
  case Width => exact hf.width
  case Height => exact hf.height
  case BytesPerLine => exact hf.row
  case HWResolutionX => exact hf.resW
  case HWResolutionY => exact hf.resH
  case PageSizeX => exact hf.ptW
  case PageSizeY => exact hf.ptH
  case MediaPosition => have := hf.position; simp only [U32]; omega
  case CrossFeedTransform => exact eb _
  case FeedTransform => exact eb _
  case Duplex => simp only [U32]; split <;> omega
  case Tumble => simp only [U32]; split <;> omega
  case BitsPerColor => simp only [U32]; cases p.colorMode <;> decide
  case BitsPerPixel => simp only [U32]; cases p.colorMode <;> decide
  case ColorSpace => simp only [U32]; cases p.colorMode <;> decide
  case NumColors => simp only [U32]; cases p.colorMode <;> decide
  case PrintQuality => simp only [U32]; cases p.quality <;> decide
  all_goals first | exact e0 | (simp only [U32]; omega)

theorem pwgHeaderAt (p : Params) (page : Nat) (hf : Spec.Fits p) (h : PwgHdr)
    (hh : makePwgHdr p (isBackside p page) = .ok h) (rest : Bytes) :
    PwgHeaderAt (h.encode ++ rest) p page := by
  have hfit := PwgHdr.fits_of p _ hf h hh
  obtain ⟨h', h1, h2⟩ := makePwgHdr_ok p (isBackside p page)
  rw [h1] at hh
  cases hh
  have s1 := hfit.PwgRaster.1
  have s2 := hfit.MediaColor.1
  have s3 := hfit.MediaType.1
  have s4 := hfit.PrintContentOptimize.1
  have s5 := hfit.RenderingIntent.1
  have s6 := hfit.PageSizeName.1
  constructor
  case pwgRaster =>
    simp only [PwgHdr.encode, List.append_assoc]
    have : h.PwgRaster = ascii "PwgRaster" := by rw [h2]
    rw [← this]
    exact StrAt_here _ _ s1
  case mediaType =>
    simp only [PwgHdr.encode, List.append_assoc]
    rw [StrAt_putStr _ _ _ _ s1 (by omega), StrAt_putStr _ _ _ _ s2 (by omega)]
    have : h.MediaType = p.mediaType := by rw [h2]
    rw [← this]
    exact StrAt_here _ _ s3
  case pageSizeName =>
    simp only [PwgHdr.encode, List.append_assoc]
    simp only [StrAt_putStr _ _ _ _ s1, StrAt_putStr _ _ _ _ s2, StrAt_putStr _ _ _ _ s3,
      StrAt_putStr _ _ _ _ s4, StrAt_putStr _ _ _ _ s5, StrAt_padding, StrAt_be32,
      Nat.reduceLeDiff, Nat.reduceSub]
    have : h.PageSizeName = p.paperSizeName := by rw [h2]
    rw [← this]
    exact StrAt_here _ _ s6
  case others =>
    have z1 : h.MediaColor = [] := by rw [h2]
    have z2 : h.PrintContentOptimize = [] := by rw [h2]
    have z3 : h.CutMedia = 0 := by rw [h2]
    have z4 : h.InsertSheet = 0 := by rw [h2]
    have z5 : h.Jog = 0 := by rw [h2]
    have z6 : h.LeadingEdge = 0 := by rw [h2]
    have z7 : h.MediaWeightMetric = 0 := by rw [h2]
    have z8 : h.Orientation = 0 := by rw [h2]
    have z9 : h.ImageBoxLeft = 0 := by rw [h2]
    have z10 : h.ImageBoxTop = 0 := by rw [h2]
    have z11 : h.ImageBoxRight = 0 := by rw [h2]
    have z12 : h.ImageBoxBottom = 0 := by rw [h2]
    have z13 : h.VendorIdentifier = 0 := by rw [h2]
    have z14 : h.VendorLength = 0 := by rw [h2]
    have z15 : h.RenderingIntent = [] := by rw [h2]
    simp only [PwgHdr.encode, List.append_assoc, z1, z2, z3, z4, z5, z6, z7, z8, z9, z10, z11, z12, z13, z14, z15]
    intro x hx
    simp only [List.mem_cons, List.not_mem_nil, or_false] at hx
    have e0 : ([] : Bytes).length ≤ 64 := by decide
    rcases hx with rfl | rfl | rfl | rfl | rfl | rfl | rfl | rfl | rfl | rfl | rfl
    all_goals
      simp only [ZerosAt_putStr _ _ _ _ s1, ZerosAt_putStr _ _ _ _ e0, ZerosAt_putStr _ _ _ _ s3, ZerosAt_padding, ZerosAt_be32,
        Nat.reduceLeDiff, Nat.reduceSub]
      repeat first
        | exact ZerosAt_none _
        | refine ZerosAt_pad _ _ _ (by omega) ?_
        | refine ZerosAt_zero32 _ _ (by omega) ?_
        | refine ZerosAt_empty _ _ (by omega) ?_
  all_goals
    simp only [PwgHdr.encode, List.append_assoc]
    simp only [u32At_putStr _ _ _ s1, u32At_putStr _ _ _ s2, u32At_putStr _ _ _ s3,
      u32At_putStr _ _ _ s4, u32At_padding, u32At_be32_skip,
      Nat.reduceLeDiff, Nat.reduceSub]
    first
      | rw [u32At_be32 _ _ (by first | exact hfit.Duplex | exact i32ToNat_u32 _)]
      | skip
  case duplex => rw [h2]
  case crossFeed =>
    rw [h2, isBackside_eq]
    by_cases hb : IsBack p.duplexMode page
    · cases hm : mirrorH p.duplexMode p.backXformMode
      · simp [hb, i32ToNat]
      · simp [hb, i32ToNat, minusOne]
    · simp [hb, i32ToNat]
  case feed =>
    rw [h2, isBackside_eq]
    by_cases hb : IsBack p.duplexMode page
    · cases hm : mirrorV p.duplexMode p.backXformMode
      · simp [hb, i32ToNat]
      · simp [hb, i32ToNat, minusOne]
    · simp [hb, i32ToNat]
  case hwResX => rw [u32At_be32 _ _ hfit.HWResolutionX, h2]
  case hwResY => rw [u32At_be32 _ _ hfit.HWResolutionY, h2]
  case mediaPosition => rw [u32At_be32 _ _ hfit.MediaPosition, h2]
  case numCopies => rw [u32At_be32 _ _ hfit.NumCopies, h2]
  case pageSizeX => rw [u32At_be32 _ _ hfit.PageSizeX, h2]
  case pageSizeY => rw [u32At_be32 _ _ hfit.PageSizeY, h2]
  case tumble => rw [u32At_be32 _ _ hfit.Tumble, h2]
  case width => rw [u32At_be32 _ _ hfit.Width, h2]
  case height => rw [u32At_be32 _ _ hfit.Height, h2]
  case bitsPerColor => rw [u32At_be32 _ _ hfit.BitsPerColor, h2]
  case bitsPerPixel => rw [u32At_be32 _ _ hfit.BitsPerPixel, h2]
  case bytesPerLine => rw [u32At_be32 _ _ hfit.BytesPerLine, h2]
  case colorOrder => rw [u32At_be32 _ _ hfit.ColorOrder, h2]
  case colorSpace => rw [u32At_be32 _ _ hfit.ColorSpace, h2]
  case numColors => rw [u32At_be32 _ _ hfit.NumColors, h2]
  case totalPageCount => rw [u32At_be32 _ _ hfit.TotalPageCount, h2]
  case alternatePrimary => rw [u32At_be32 _ _ hfit.AlternatePrimary, h2]
  case printQuality =>
    rw [u32At_be32 _ _ hfit.PrintQuality, h2]
    simp only [Quality.toNat]
    cases p.quality <;> rfl

end Verif.Raster
