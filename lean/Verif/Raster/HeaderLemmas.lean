import Verif.Raster.Page

/-! # Helper lemmas on the page headers -/

namespace Verif.Raster

/-- A string that a 64-byte field can hold. -/
def Str64 (s : Bytes) : Prop := s.length ≤ 64 ∧ ∀ b ∈ s, b ≠ 0

/-- A number that a 32-bit field can hold. -/
def U32 (n : Nat) : Prop := n < 4294967296

instance (s : Bytes) : Decidable (Str64 s) := by unfold Str64; infer_instance
instance (n : Nat) : Decidable (U32 n) := by unfold U32; infer_instance

theorem putStr_length (n : Nat) (s : Bytes) (h : s.length ≤ n) : (putStr n s).length = n := by
  simp [putStr]; omega

theorem padding_length (n : Nat) : (padding n).length = n := by simp [padding]

theorem getStr_putStr (n : Nat) (s r : Bytes) (h : s.length ≤ n) (h0 : ∀ b ∈ s, b ≠ 0) :
    getStr n (putStr n s ++ r) = .ok (s, r) := by
  unfold getStr
  rw [rdBytes_append _ _ _ (putStr_length n s h)]
  simp only [Outcome.bind_ok, Outcome.pure_eq]
  congr 2
  unfold putStr
  rw [List.takeWhile_append_of_pos (by simpa using h0)]
  cases n - s.length <;> simp [List.replicate_succ]

theorem getStr64 (s r : Bytes) (h : Str64 s) : getStr 64 (putStr 64 s ++ r) = .ok (s, r) :=
  getStr_putStr 64 s r h.1 h.2

theorem skip_padding (n : Nat) (r : Bytes) : skip n (padding n ++ r) = .ok ((), r) := by
  unfold skip
  rw [rdBytes_append _ _ _ (padding_length n)]; rfl

theorem rd32_u32 (n : Nat) (r : Bytes) (h : U32 n) : rd32 (be32 n ++ r) = .ok (n, r) := by
  rw [rd32_be32, Nat.mod_eq_of_lt h]

theorem rd8_u8 (n : Nat) (r : Bytes) (h : n < 256) : rd8 (be8 n ++ r) = .ok (n, r) := by
  rw [rd8_be8, Nat.mod_eq_of_lt h]

theorem i32ToNat_u32 (i : Int) : U32 (i32ToNat i) := by unfold U32 i32ToNat; omega

theorem natToI32_i32ToNat (i : Int) (h1 : -2147483648 ≤ i) (h2 : i < 2147483648) :
    natToI32 (i32ToNat i) = i := by
  unfold natToI32 i32ToNat; split <;> omega

/-- All values of the header fit their fields. -/
structure PwgHdr.Fits (h : PwgHdr) : Prop where
  PwgRaster : Str64 h.PwgRaster
  MediaColor : Str64 h.MediaColor
  MediaType : Str64 h.MediaType
  PrintContentOptimize : Str64 h.PrintContentOptimize
  CutMedia : U32 h.CutMedia
  Duplex : U32 h.Duplex
  HWResolutionX : U32 h.HWResolutionX
  HWResolutionY : U32 h.HWResolutionY
  InsertSheet : U32 h.InsertSheet
  Jog : U32 h.Jog
  LeadingEdge : U32 h.LeadingEdge
  MediaPosition : U32 h.MediaPosition
  MediaWeightMetric : U32 h.MediaWeightMetric
  NumCopies : U32 h.NumCopies
  Orientation : U32 h.Orientation
  PageSizeX : U32 h.PageSizeX
  PageSizeY : U32 h.PageSizeY
  Tumble : U32 h.Tumble
  Width : U32 h.Width
  Height : U32 h.Height
  BitsPerColor : U32 h.BitsPerColor
  BitsPerPixel : U32 h.BitsPerPixel
  BytesPerLine : U32 h.BytesPerLine
  ColorOrder : U32 h.ColorOrder
  ColorSpace : U32 h.ColorSpace
  NumColors : U32 h.NumColors
  TotalPageCount : U32 h.TotalPageCount
  CrossFeedTransform : -2147483648 ≤ h.CrossFeedTransform ∧ h.CrossFeedTransform < 2147483648
  FeedTransform : -2147483648 ≤ h.FeedTransform ∧ h.FeedTransform < 2147483648
  ImageBoxLeft : U32 h.ImageBoxLeft
  ImageBoxTop : U32 h.ImageBoxTop
  ImageBoxRight : U32 h.ImageBoxRight
  ImageBoxBottom : U32 h.ImageBoxBottom
  AlternatePrimary : U32 h.AlternatePrimary
  PrintQuality : U32 h.PrintQuality
  VendorIdentifier : U32 h.VendorIdentifier
  VendorLength : U32 h.VendorLength
  RenderingIntent : Str64 h.RenderingIntent
  PageSizeName : Str64 h.PageSizeName

theorem PwgHdr.decode_encode (h : PwgHdr) (hf : h.Fits) (r : Bytes) :
    PwgHdr.decode (h.encode ++ r) = .ok (h, r) := by
  unfold PwgHdr.decode PwgHdr.encode
  simp only [List.append_assoc]
  rw [getStr64 _ _ hf.PwgRaster, Outcome.bind_ok]; dsimp only
  rw [getStr64 _ _ hf.MediaColor, Outcome.bind_ok]; dsimp only
  rw [getStr64 _ _ hf.MediaType, Outcome.bind_ok]; dsimp only
  rw [getStr64 _ _ hf.PrintContentOptimize, Outcome.bind_ok]; dsimp only
  rw [skip_padding, Outcome.bind_ok]; dsimp only
  rw [rd32_u32 _ _ hf.CutMedia, Outcome.bind_ok]; dsimp only
  rw [rd32_u32 _ _ hf.Duplex, Outcome.bind_ok]; dsimp only
  rw [rd32_u32 _ _ hf.HWResolutionX, Outcome.bind_ok]; dsimp only
  rw [rd32_u32 _ _ hf.HWResolutionY, Outcome.bind_ok]; dsimp only
  rw [skip_padding, Outcome.bind_ok]; dsimp only
  rw [rd32_u32 _ _ hf.InsertSheet, Outcome.bind_ok]; dsimp only
  rw [rd32_u32 _ _ hf.Jog, Outcome.bind_ok]; dsimp only
  rw [rd32_u32 _ _ hf.LeadingEdge, Outcome.bind_ok]; dsimp only
  rw [skip_padding, Outcome.bind_ok]; dsimp only
  rw [rd32_u32 _ _ hf.MediaPosition, Outcome.bind_ok]; dsimp only
  rw [rd32_u32 _ _ hf.MediaWeightMetric, Outcome.bind_ok]; dsimp only
  rw [skip_padding, Outcome.bind_ok]; dsimp only
  rw [rd32_u32 _ _ hf.NumCopies, Outcome.bind_ok]; dsimp only
  rw [rd32_u32 _ _ hf.Orientation, Outcome.bind_ok]; dsimp only
  rw [skip_padding, Outcome.bind_ok]; dsimp only
  rw [rd32_u32 _ _ hf.PageSizeX, Outcome.bind_ok]; dsimp only
  rw [rd32_u32 _ _ hf.PageSizeY, Outcome.bind_ok]; dsimp only
  rw [skip_padding, Outcome.bind_ok]; dsimp only
  rw [rd32_u32 _ _ hf.Tumble, Outcome.bind_ok]; dsimp only
  rw [rd32_u32 _ _ hf.Width, Outcome.bind_ok]; dsimp only
  rw [rd32_u32 _ _ hf.Height, Outcome.bind_ok]; dsimp only
  rw [skip_padding, Outcome.bind_ok]; dsimp only
  rw [rd32_u32 _ _ hf.BitsPerColor, Outcome.bind_ok]; dsimp only
  rw [rd32_u32 _ _ hf.BitsPerPixel, Outcome.bind_ok]; dsimp only
  rw [rd32_u32 _ _ hf.BytesPerLine, Outcome.bind_ok]; dsimp only
  rw [rd32_u32 _ _ hf.ColorOrder, Outcome.bind_ok]; dsimp only
  rw [rd32_u32 _ _ hf.ColorSpace, Outcome.bind_ok]; dsimp only
  rw [skip_padding, Outcome.bind_ok]; dsimp only
  rw [rd32_u32 _ _ hf.NumColors, Outcome.bind_ok]; dsimp only
  rw [skip_padding, Outcome.bind_ok]; dsimp only
  rw [rd32_u32 _ _ hf.TotalPageCount, Outcome.bind_ok]; dsimp only
  rw [rd32_u32 _ _ (i32ToNat_u32 _), Outcome.bind_ok]; dsimp only
  rw [rd32_u32 _ _ (i32ToNat_u32 _), Outcome.bind_ok]; dsimp only
  rw [rd32_u32 _ _ hf.ImageBoxLeft, Outcome.bind_ok]; dsimp only
  rw [rd32_u32 _ _ hf.ImageBoxTop, Outcome.bind_ok]; dsimp only
  rw [rd32_u32 _ _ hf.ImageBoxRight, Outcome.bind_ok]; dsimp only
  rw [rd32_u32 _ _ hf.ImageBoxBottom, Outcome.bind_ok]; dsimp only
  rw [rd32_u32 _ _ hf.AlternatePrimary, Outcome.bind_ok]; dsimp only
  rw [rd32_u32 _ _ hf.PrintQuality, Outcome.bind_ok]; dsimp only
  rw [skip_padding, Outcome.bind_ok]; dsimp only
  rw [rd32_u32 _ _ hf.VendorIdentifier, Outcome.bind_ok]; dsimp only
  rw [rd32_u32 _ _ hf.VendorLength, Outcome.bind_ok]; dsimp only
  rw [skip_padding, Outcome.bind_ok]; dsimp only
  rw [skip_padding, Outcome.bind_ok]; dsimp only
  rw [getStr64 _ _ hf.RenderingIntent, Outcome.bind_ok]; dsimp only
  rw [getStr64 _ _ hf.PageSizeName, Outcome.bind_ok]; dsimp only
  rw [natToI32_i32ToNat _ hf.CrossFeedTransform.1 hf.CrossFeedTransform.2,
    natToI32_i32ToNat _ hf.FeedTransform.1 hf.FeedTransform.2]
  rfl

theorem PwgHdr.encode_length (h : PwgHdr) (hf : h.Fits) : h.encode.length = 1796 := by
  have h1 := PwgHdr.decode_consumes _ _ (PwgHdr.decode_encode h hf [])
  simpa using h1.symm

/-- All values of the header fit their fields. -/
structure UrfHdr.Fits (h : UrfHdr) : Prop where
  BitsPerPixel : h.BitsPerPixel < 256
  ColorSpace : h.ColorSpace < 256
  Duplex : h.Duplex < 256
  Quality : h.Quality < 256
  MediaType : h.MediaType < 256
  MediaPosition : h.MediaPosition < 256
  Width : U32 h.Width
  Height : U32 h.Height
  HWRes : U32 h.HWRes

theorem UrfHdr.decode_encode (h : UrfHdr) (hf : h.Fits) (r : Bytes) :
    UrfHdr.decode (h.encode ++ r) = .ok (h, r) := by
  unfold UrfHdr.decode UrfHdr.encode
  simp only [List.append_assoc]
  rw [rd8_u8 _ _ hf.BitsPerPixel, Outcome.bind_ok]; dsimp only
  rw [rd8_u8 _ _ hf.ColorSpace, Outcome.bind_ok]; dsimp only
  rw [rd8_u8 _ _ hf.Duplex, Outcome.bind_ok]; dsimp only
  rw [rd8_u8 _ _ hf.Quality, Outcome.bind_ok]; dsimp only
  rw [rd8_u8 _ _ hf.MediaType, Outcome.bind_ok]; dsimp only
  rw [rd8_u8 _ _ hf.MediaPosition, Outcome.bind_ok]; dsimp only
  rw [skip_padding, Outcome.bind_ok]; dsimp only
  rw [skip_padding, Outcome.bind_ok]; dsimp only
  rw [rd32_u32 _ _ hf.Width, Outcome.bind_ok]; dsimp only
  rw [rd32_u32 _ _ hf.Height, Outcome.bind_ok]; dsimp only
  rw [rd32_u32 _ _ hf.HWRes, Outcome.bind_ok]; dsimp only
  rw [skip_padding, Outcome.bind_ok]; dsimp only
  rw [skip_padding, Outcome.bind_ok]; dsimp only
  rfl

theorem UrfHdr.encode_length (h : UrfHdr) : h.encode.length = 32 := by
  simp [UrfHdr.encode, padding]

end Verif.Raster
