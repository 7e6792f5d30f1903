import Verif.Core.Bytes

/-!
# Model of the page headers (lib/pwgpghdr.codable, lib/urfpghdr.codable)

The `.codable` files are expanded by macros of the `bytestream` submodule (not in /repo). Modelled
semantics: fields are laid out in order, integers big-endian, strings zero-padded to their size, padding is zero.
This agrees with the sample file tests/pacman.pwg. Enumerations are modelled by their numeric value; a check of
enumeration values on decoding, if there is one, is not modelled.
-/

namespace Verif.Raster

/-- `STRING(n, ...)` when encoding. For strings longer than `n` the behaviour of the macro is not known;
the theorems exclude them. -/
def putStr (n : Nat) (s : Bytes) : Bytes := s ++ List.replicate (n - s.length) 0

/-- `PADDING(n)` when encoding. -/
def padding (n : Nat) : Bytes := List.replicate n 0

/-- `STRING(n, ...)` when decoding: the characters before the first NUL. -/
def getStr (n : Nat) (s : Bytes) : Outcome (Bytes × Bytes) := do
  let (x, r) ← rdBytes n s
  return (x.takeWhile (· ≠ 0), r)

/-- `PADDING(n)` when decoding: skipped. -/
def skip (n : Nat) (s : Bytes) : Outcome (Unit × Bytes) := do
  let (_, r) ← rdBytes n s
  return ((), r)

/-- A `FIELD(int32_t, ...)` as the unsigned number with the same bytes. -/
def i32ToNat (i : Int) : Nat := (i % 4294967296).toNat

/-- The `int32_t` with the same bytes as an unsigned number. -/
def natToI32 (n : Nat) : Int := if n < 2147483648 then n else (n : Int) - 4294967296

/-- The members of `PwgPgHdr`, lib/pwgpghdr.codable, with their default values. -/
structure PwgHdr where
  PwgRaster : Bytes := ascii "PwgRaster"
  MediaColor : Bytes := []
  MediaType : Bytes := []
  PrintContentOptimize : Bytes := []
  CutMedia : Nat := 0
  Duplex : Nat := 0
  HWResolutionX : Nat := 0
  HWResolutionY : Nat := 0
  InsertSheet : Nat := 0
  Jog : Nat := 0
  LeadingEdge : Nat := 0
  MediaPosition : Nat := 0
  MediaWeightMetric : Nat := 0
  NumCopies : Nat := 0
  Orientation : Nat := 0
  PageSizeX : Nat := 0
  PageSizeY : Nat := 0
  Tumble : Nat := 0
  Width : Nat := 0
  Height : Nat := 0
  BitsPerColor : Nat := 0
  BitsPerPixel : Nat := 0
  BytesPerLine : Nat := 0
  ColorOrder : Nat := 0
  ColorSpace : Nat := 0
  NumColors : Nat := 0
  TotalPageCount : Nat := 0
  CrossFeedTransform : Int := 0
  FeedTransform : Int := 0
  ImageBoxLeft : Nat := 0
  ImageBoxTop : Nat := 0
  ImageBoxRight : Nat := 0
  ImageBoxBottom : Nat := 0
  AlternatePrimary : Nat := 0
  PrintQuality : Nat := 0
  VendorIdentifier : Nat := 0
  VendorLength : Nat := 0
  RenderingIntent : Bytes := []
  PageSizeName : Bytes := []
  deriving DecidableEq, Repr

/-- `PwgPgHdr::encodeInto`, lib/pwgpghdr.codable read top to bottom. -/
def PwgHdr.encode (h : PwgHdr) : Bytes :=
  putStr 64 h.PwgRaster ++ (putStr 64 h.MediaColor ++ (putStr 64 h.MediaType ++
  (putStr 64 h.PrintContentOptimize ++ (padding 12 ++ (be32 h.CutMedia ++ (be32 h.Duplex ++
  (be32 h.HWResolutionX ++ (be32 h.HWResolutionY ++ (padding 16 ++ (be32 h.InsertSheet ++
  (be32 h.Jog ++ (be32 h.LeadingEdge ++ (padding 12 ++ (be32 h.MediaPosition ++
  (be32 h.MediaWeightMetric ++ (padding 8 ++ (be32 h.NumCopies ++ (be32 h.Orientation ++
  (padding 4 ++ (be32 h.PageSizeX ++ (be32 h.PageSizeY ++ (padding 8 ++ (be32 h.Tumble ++
  (be32 h.Width ++ (be32 h.Height ++ (padding 4 ++ (be32 h.BitsPerColor ++ (be32 h.BitsPerPixel ++
  (be32 h.BytesPerLine ++ (be32 h.ColorOrder ++ (be32 h.ColorSpace ++ (padding 16 ++
  (be32 h.NumColors ++ (padding 28 ++ (be32 h.TotalPageCount ++
  (be32 (i32ToNat h.CrossFeedTransform) ++ (be32 (i32ToNat h.FeedTransform) ++
  (be32 h.ImageBoxLeft ++ (be32 h.ImageBoxTop ++ (be32 h.ImageBoxRight ++ (be32 h.ImageBoxBottom ++
  (be32 h.AlternatePrimary ++ (be32 h.PrintQuality ++ (padding 20 ++ (be32 h.VendorIdentifier ++
  (be32 h.VendorLength ++ (padding 1088 ++ (padding 64 ++ (putStr 64 h.RenderingIntent ++
  putStr 64 h.PageSizeName)))))))))))))))))))))))))))))))))))))))))))))))))

/-- `PwgPgHdr::decodeFrom`, lib/pwgpghdr.codable read top to bottom. -/
def PwgHdr.decode (s : Bytes) : Outcome (PwgHdr × Bytes) := do
  let (pwgRaster, s) ← getStr 64 s
  let (mediaColor, s) ← getStr 64 s
  let (mediaType, s) ← getStr 64 s
  let (printContentOptimize, s) ← getStr 64 s
  let (_, s) ← skip 12 s
  let (cutMedia, s) ← rd32 s
  let (duplex, s) ← rd32 s
  let (hwResolutionX, s) ← rd32 s
  let (hwResolutionY, s) ← rd32 s
  let (_, s) ← skip 16 s
  let (insertSheet, s) ← rd32 s
  let (jog, s) ← rd32 s
  let (leadingEdge, s) ← rd32 s
  let (_, s) ← skip 12 s
  let (mediaPosition, s) ← rd32 s
  let (mediaWeightMetric, s) ← rd32 s
  let (_, s) ← skip 8 s
  let (numCopies, s) ← rd32 s
  let (orientation, s) ← rd32 s
  let (_, s) ← skip 4 s
  let (pageSizeX, s) ← rd32 s
  let (pageSizeY, s) ← rd32 s
  let (_, s) ← skip 8 s
  let (tumble, s) ← rd32 s
  let (width, s) ← rd32 s
  let (height, s) ← rd32 s
  let (_, s) ← skip 4 s
  let (bitsPerColor, s) ← rd32 s
  let (bitsPerPixel, s) ← rd32 s
  let (bytesPerLine, s) ← rd32 s
  let (colorOrder, s) ← rd32 s
  let (colorSpace, s) ← rd32 s
  let (_, s) ← skip 16 s
  let (numColors, s) ← rd32 s
  let (_, s) ← skip 28 s
  let (totalPageCount, s) ← rd32 s
  let (crossFeedTransform, s) ← rd32 s
  let (feedTransform, s) ← rd32 s
  let (imageBoxLeft, s) ← rd32 s
  let (imageBoxTop, s) ← rd32 s
  let (imageBoxRight, s) ← rd32 s
  let (imageBoxBottom, s) ← rd32 s
  let (alternatePrimary, s) ← rd32 s
  let (printQuality, s) ← rd32 s
  let (_, s) ← skip 20 s
  let (vendorIdentifier, s) ← rd32 s
  let (vendorLength, s) ← rd32 s
  let (_, s) ← skip 1088 s
  let (_, s) ← skip 64 s
  let (renderingIntent, s) ← getStr 64 s
  let (pageSizeName, s) ← getStr 64 s
  return ({ PwgRaster := pwgRaster, MediaColor := mediaColor, MediaType := mediaType,
            PrintContentOptimize := printContentOptimize, CutMedia := cutMedia, Duplex := duplex,
            HWResolutionX := hwResolutionX, HWResolutionY := hwResolutionY,
            InsertSheet := insertSheet, Jog := jog, LeadingEdge := leadingEdge,
            MediaPosition := mediaPosition, MediaWeightMetric := mediaWeightMetric,
            NumCopies := numCopies, Orientation := orientation, PageSizeX := pageSizeX,
            PageSizeY := pageSizeY, Tumble := tumble, Width := width, Height := height,
            BitsPerColor := bitsPerColor, BitsPerPixel := bitsPerPixel,
            BytesPerLine := bytesPerLine, ColorOrder := colorOrder, ColorSpace := colorSpace,
            NumColors := numColors, TotalPageCount := totalPageCount,
            CrossFeedTransform := natToI32 crossFeedTransform,
            FeedTransform := natToI32 feedTransform, ImageBoxLeft := imageBoxLeft,
            ImageBoxTop := imageBoxTop, ImageBoxRight := imageBoxRight,
            ImageBoxBottom := imageBoxBottom, AlternatePrimary := alternatePrimary,
            PrintQuality := printQuality, VendorIdentifier := vendorIdentifier,
            VendorLength := vendorLength, RenderingIntent := renderingIntent,
            PageSizeName := pageSizeName }, s)

/-- The members of `UrfPgHdr`, lib/urfpghdr.codable. -/
structure UrfHdr where
  BitsPerPixel : Nat := 0
  ColorSpace : Nat := 0
  Duplex : Nat := 1
  Quality : Nat := 0
  MediaType : Nat := 0
  MediaPosition : Nat := 0
  Width : Nat := 0
  Height : Nat := 0
  HWRes : Nat := 0
  deriving DecidableEq, Repr

/-- `UrfPgHdr::encodeInto`, lib/urfpghdr.codable read top to bottom. -/
def UrfHdr.encode (h : UrfHdr) : Bytes :=
  be8 h.BitsPerPixel ++ (be8 h.ColorSpace ++ (be8 h.Duplex ++ (be8 h.Quality ++ (be8 h.MediaType ++
  (be8 h.MediaPosition ++ (padding 2 ++ (padding 4 ++ (be32 h.Width ++ (be32 h.Height ++
  (be32 h.HWRes ++ (padding 4 ++ padding 4)))))))))))

/-- `UrfPgHdr::decodeFrom`, lib/urfpghdr.codable read top to bottom. -/
def UrfHdr.decode (s : Bytes) : Outcome (UrfHdr × Bytes) := do
  let (bitsPerPixel, s) ← rd8 s
  let (colorSpace, s) ← rd8 s
  let (duplex, s) ← rd8 s
  let (quality, s) ← rd8 s
  let (mediaType, s) ← rd8 s
  let (mediaPosition, s) ← rd8 s
  let (_, s) ← skip 2 s
  let (_, s) ← skip 4 s
  let (width, s) ← rd32 s
  let (height, s) ← rd32 s
  let (hwRes, s) ← rd32 s
  let (_, s) ← skip 4 s
  let (_, s) ← skip 4 s
  return ({ BitsPerPixel := bitsPerPixel, ColorSpace := colorSpace, Duplex := duplex,
            Quality := quality, MediaType := mediaType, MediaPosition := mediaPosition,
            Width := width, Height := height, HWRes := hwRes }, s)

end Verif.Raster
