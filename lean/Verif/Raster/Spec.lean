import Verif.Core.Text
import Verif.Params.Model

/-!
# Specification of the raster properties

Written without reference to the model of the codec: bits of a bitmap, geometry of a row, the transforms that
PWG 5102.4 prescribes for back sides, the shape of a compressed line, the PNM and PWG/URF facts.
-/

namespace Verif.Raster.Spec

/-- Bit `i` of a byte string, most significant bit of each byte first (0 beyond the end). -/
def bitAt (b : Bytes) (i : Nat) : Bool := (b.getD (i / 8) 0).toNat.testBit (7 - i % 8)

/-- Bits per pixel of a color mode, by its name. -/
def bitsPerPixel : ColorMode → Nat
  | .sRGB24 => 24
  | .CMYK32 => 32
  | .Gray8 => 8
  | .Black8 => 8
  | .Gray1 => 1
  | .Black1 => 1
  | .sRGB48 => 48
  | .Gray16 => 16

/-- Least number of whole bytes that holds a row of `w` pixels. -/
def rowBytes (m : ColorMode) (w : Nat) : Nat := (w * bitsPerPixel m + 7) / 8

/-- The unit in which PWG/URF raster is compressed: a pixel, but at least one byte. -/
def unit (m : ColorMode) : Nat := (bitsPerPixel m + 7) / 8

/-- Is this page printed on the back of a sheet? -/
def IsBack (d : DuplexMode) (page : Nat) : Prop := d ≠ .OneSided ∧ 2 ∣ page

instance (d : DuplexMode) (page : Nat) : Decidable (IsBack d page) := by unfold IsBack; infer_instance

/-- PWG 5102.4, sheet-back: must the back side be mirrored left-right? (columns: duplex mode, back transform) -/
def mirrorH : DuplexMode → BackXform → Bool
  | .TwoSidedLongEdge, .Rotated => true
  | .TwoSidedShortEdge, .Flipped => true
  | .TwoSidedShortEdge, .ManualTumble => true
  | _, _ => false

/-- PWG 5102.4, sheet-back: must the back side be mirrored top-bottom? -/
def mirrorV : DuplexMode → BackXform → Bool
  | .TwoSidedLongEdge, .Flipped => true
  | .TwoSidedLongEdge, .Rotated => true
  | .TwoSidedShortEdge, .ManualTumble => true
  | _, _ => false

/-- `out` is the `w`×`h` picture `inp` (`row` bytes per row, `bpp` bits per pixel) mirrored left-right if
`mh`, and top-bottom if `mv`: every bit of every pixel is where it belongs. -/
def Transformed (w h row bpp : Nat) (mh mv : Bool) (inp out : Bytes) : Prop :=
  out.length = h * row ∧
  ∀ y < h, ∀ x < w, ∀ k < bpp,
    bitAt out (8 * (row * y) + bpp * x + k) =
    bitAt inp (8 * (row * (if mv then h - 1 - y else y)) + bpp * (if mh then w - 1 - x else x) + k)

/-- The shape of a compressed line with unit `c`: a sequence of repeat records (0..127, one unit) and literal records
(130..255, that is 127..2 units). -/
inductive Records (c : Nat) : Bytes → Prop where
  | nil : Records c []
  | repeated (n : Nat) (hn : n ≤ 127) (u rest : Bytes) (hu : u.length = c) :
      Records c rest → Records c (UInt8.ofNat n :: (u ++ rest))
  | literal (op : Nat) (h1 : 130 ≤ op) (h2 : op ≤ 255) (us rest : Bytes)
      (hu : us.length = (257 - op) * c) : Records c rest → Records c (UInt8.ofNat op :: (us ++ rest))

/-- The shape of a page body with `h` rows and unit `c`: per group of equal rows a count byte (rows - 1) and the records of the
row. -/
inductive BodyRecords (c : Nat) : Nat → Bytes → Prop where
  | nil : BodyRecords c 0 []
  | rows (n h : Nat) (hn : n ≤ 255) (recs rest : Bytes) :
      Records c recs → BodyRecords c h rest → BodyRecords c (n + 1 + h) (UInt8.ofNat n :: (recs ++ rest))

/-- The big-endian 32-bit number at byte offset `o`. -/
def u32At (b : Bytes) (o : Nat) : Nat :=
  (b.getD o 0).toNat * 16777216 + (b.getD (o + 1) 0).toNat * 65536 + (b.getD (o + 2) 0).toNat * 256 +
    (b.getD (o + 3) 0).toNat

/-- The byte at offset `o`. -/
def u8At (b : Bytes) (o : Nat) : Nat := (b.getD o 0).toNat

/-- The 64-byte field at offset `o` holds the string `s`, zero-padded. -/
def StrAt (b : Bytes) (o : Nat) (s : Bytes) : Prop :=
  (b.drop o).take 64 = s ++ List.replicate (64 - s.length) 0

/-- The `n` bytes at offset `o` are zero. -/
def ZerosAt (b : Bytes) (o n : Nat) : Prop := (b.drop o).take n = List.replicate n 0

/-- Number of color components of a color mode, by its name. -/
def colors : ColorMode → Nat
  | .sRGB24 | .sRGB48 => 3
  | .CMYK32 => 4
  | .Gray8 | .Black8 | .Gray1 | .Black1 | .Gray16 => 1

/-- Bits per color component. -/
def bitsPerColor : ColorMode → Nat
  | .sRGB24 | .CMYK32 | .Gray8 | .Black8 => 8
  | .Gray1 | .Black1 => 1
  | .sRGB48 | .Gray16 => 16

/-- PWG 5102.4 table 6, cupsColorSpace values: 3 black, 6 CMYK, 18 sgray, 19 srgb. -/
def colorSpace : ColorMode → Nat
  | .sRGB24 | .sRGB48 => 19
  | .CMYK32 => 6
  | .Gray8 | .Gray1 | .Gray16 => 18
  | .Black8 | .Black1 => 3

/-- -1 as a 32-bit field. -/
def minusOne : Nat := 4294967295

/-- The PWG page header at the start of `b`, by the byte offsets of PWG 5102.4 table 3, for parameters
`p` and page number `page`. -/
structure PwgHeaderAt (b : Bytes) (p : Params) (page : Nat) : Prop where
  pwgRaster : StrAt b 0 (ascii "PwgRaster")
  mediaType : StrAt b 128 p.mediaType
  duplex : u32At b 272 = if p.duplexMode = .OneSided then 0 else 1
  hwResX : u32At b 276 = p.hwResW
  hwResY : u32At b 280 = p.hwResH
  mediaPosition : u32At b 324 = p.mediaPosition
  numCopies : u32At b 340 = 1
  pageSizeX : u32At b 352 = p.widthPt
  pageSizeY : u32At b 356 = p.heightPt
  tumble : u32At b 368 = if p.duplexMode = .TwoSidedShortEdge then 1 else 0
  width : u32At b 372 = p.widthPx
  height : u32At b 376 = p.heightPx
  bitsPerColor : u32At b 384 = bitsPerColor p.colorMode
  bitsPerPixel : u32At b 388 = bitsPerPixel p.colorMode
  bytesPerLine : u32At b 392 = rowBytes p.colorMode p.widthPx
  colorOrder : u32At b 396 = 0
  colorSpace : u32At b 400 = colorSpace p.colorMode
  numColors : u32At b 420 = colors p.colorMode
  totalPageCount : u32At b 452 = 0
  crossFeed : u32At b 456 =
    if IsBack p.duplexMode page ∧ mirrorH p.duplexMode p.backXformMode = true then minusOne else 1
  feed : u32At b 460 =
    if IsBack p.duplexMode page ∧ mirrorV p.duplexMode p.backXformMode = true then minusOne else 1
  alternatePrimary : u32At b 480 = 0x00ffffff
  printQuality : u32At b 484 = match p.quality with
    | .DefaultQuality => 0 | .DraftQuality => 3 | .NormalQuality => 4 | .HighQuality => 5
  pageSizeName : StrAt b 1732 p.paperSizeName
  -- media color; print content optimize, reserved, cut media; reserved, insert sheet, jog, leading edge, reserved; media weight, reserved;
  -- orientation, reserved; reserved (three times); reserved; image box; reserved, vendor identifier, length and data, reserved, rendering intent
  others : ∀ x ∈ [(64, 64), (192, 80), (284, 40), (328, 12), (344, 8), (360, 8), (380, 4), (404, 16), (424, 28), (464, 16), (488, 1244)],
    ZerosAt b x.1 x.2

/-- The numbers and strings of `p` fit the fields of a PWG page header. -/
structure Fits (p : Params) : Prop where
  width : p.widthPx < 2 ^ 32
  height : p.heightPx < 2 ^ 32
  row : rowBytes p.colorMode p.widthPx < 2 ^ 32
  resW : p.hwResW < 2 ^ 32
  resH : p.hwResH < 2 ^ 32
  ptW : p.widthPt < 2 ^ 32
  ptH : p.heightPt < 2 ^ 32
  position : p.mediaPosition < 50
  mediaType : p.mediaType.length ≤ 64 ∧ ∀ b ∈ p.mediaType, b ≠ 0
  sizeName : p.paperSizeName.length ≤ 64 ∧ ∀ b ∈ p.paperSizeName, b ≠ 0

/-- The media types that URF knows, with their numbers. -/
def urfMedia : List (String × Nat) :=
  [("auto", 0), ("stationery", 1), ("transparency", 2), ("envelope", 3), ("cardstock", 4),
   ("labels", 5), ("stationery-letterhead", 6), ("disc", 7), ("photographic-matte", 8),
   ("photographic-satin", 9), ("photographic-semi-gloss", 10), ("photographic-glossy", 11),
   ("photographic-high-gloss", 12), ("other", 13)]

/-- The URF number of a media type; no media type means "auto". -/
def urfMediaNumber (t : Bytes) (n : Nat) : Prop :=
  (t = [] ∧ n = 0) ∨ ∃ s, (s, n) ∈ urfMedia ∧ t = ascii s

/-- The color spaces of URF: 0 sGray, 1 sRGB, 6 CMYK. There is none for black and 1-bit. -/
def urfColorNumber (m : ColorMode) (n : Nat) : Prop :=
  ((m = .sRGB24 ∨ m = .sRGB48) ∧ n = 1) ∨ (m = .CMYK32 ∧ n = 6) ∨ ((m = .Gray8 ∨ m = .Gray16) ∧ n = 0)

/-- URF can express the parameters. -/
def UrfAble (p : Params) : Prop :=
  p.hwResW = p.hwResH ∧ (∃ n, urfColorNumber p.colorMode n) ∧ ∃ n, urfMediaNumber p.mediaType n

/-- The 32-byte URF page header at the start of `b`. -/
structure UrfHeaderAt (b : Bytes) (p : Params) : Prop where
  bitsPerPixel : u8At b 0 = bitsPerPixel p.colorMode
  colorSpace : urfColorNumber p.colorMode (u8At b 1)
  duplex : u8At b 2 = match p.duplexMode with
    | .OneSided => 1 | .TwoSidedShortEdge => 2 | .TwoSidedLongEdge => 3
  quality : u8At b 3 = match p.quality with
    | .DefaultQuality => 0 | .DraftQuality => 3 | .NormalQuality => 4 | .HighQuality => 5
  mediaType : urfMediaNumber p.mediaType (u8At b 4)
  mediaPosition : u8At b 5 = p.mediaPosition
  width : u32At b 12 = p.widthPx
  height : u32At b 16 = p.heightPx
  resolution : u32At b 20 = p.hwResW ∧ p.hwResW = p.hwResH
  -- reserved
  others : ZerosAt b 6 6 ∧ ZerosAt b 24 8

/-- Is the page turned over by one of the two mirrorings? -/
def Flipped (p : Params) (page : Nat) : Prop :=
  IsBack p.duplexMode page ∧
    (mirrorH p.duplexMode p.backXformMode = true ∨ mirrorV p.duplexMode p.backXformMode = true)

/-- `out` is what a reader must see of page number `page` with parameters `p` and bitmap `bmp`: the bitmap itself if the
page is not turned over, and else the bitmap mirrored as demanded (for 1-bit left-right mirroring: widths of whole bytes). -/
structure Pixels (p : Params) (page : Nat) (bmp out : Bytes) : Prop where
  size : out.length = p.heightPx * rowBytes p.colorMode p.widthPx
  same : ¬ Flipped p page → out = bmp
  mirrored : (IsBack p.duplexMode page → mirrorH p.duplexMode p.backXformMode = true →
      8 ∣ p.widthPx * bitsPerPixel p.colorMode) →
    Transformed p.widthPx p.heightPx (rowBytes p.colorMode p.widthPx) (bitsPerPixel p.colorMode)
      (decide (IsBack p.duplexMode page) && mirrorH p.duplexMode p.backXformMode)
      (decide (IsBack p.duplexMode page) && mirrorV p.duplexMode p.backXformMode) bmp out

/-! ## PNM pictures -/

/-- The kinds of binary PNM pictures that ppm2pwg takes. -/
inductive PnmKind where
  | pbm | pgm8 | pgm16 | ppm8 | ppm16
  deriving DecidableEq, Repr

/-- The color mode of a kind of picture. -/
def PnmKind.mode : PnmKind → ColorMode
  | .pbm => .Black1
  | .pgm8 => .Gray8
  | .pgm16 => .Gray16
  | .ppm8 => .sRGB24
  | .ppm16 => .sRGB48

/-- The magic number. -/
def PnmKind.magic : PnmKind → Bytes
  | .pbm => ascii "P4"
  | .pgm8 | .pgm16 => ascii "P5"
  | .ppm8 | .ppm16 => ascii "P6"

/-- White space and the maximum value, after the height (not in PBM). -/
def PnmKind.maxval : PnmKind → Bytes
  | .pbm => []
  | .pgm8 | .ppm8 => ascii "255"
  | .pgm16 | .ppm16 => ascii "65535"

/-- A binary PNM picture: comment lines after the magic number, white space between the numbers, one white space character after the last number, then the
pixels. -/
structure PnmPage where
  kind : PnmKind
  comments : List Bytes
  width : Nat
  sep1 : Bytes
  height : Nat
  sep2 : Bytes
  last : UInt8
  pixels : Bytes

/-- The bytes of the picture. -/
def PnmPage.bytes (g : PnmPage) : Bytes :=
  g.kind.magic ++ (ascii "\n" ++ ((g.comments.map (fun c => ascii "#" ++ (c ++ ascii "\n"))).flatten ++
    (dec g.width ++ (g.sep1 ++ (dec g.height ++
      ((if g.kind = .pbm then [] else g.sep2 ++ g.kind.maxval) ++ (g.last :: g.pixels)))))))

/-- The print parameters for a picture: its color mode and size, everything else as given. -/
def PnmPage.params (pt : Nat → Nat → Nat) (p : Params) (g : PnmPage) : Params :=
  { p with
    colorMode := g.kind.mode
    widthPx := g.width
    heightPx := g.height
    widthPt := pt g.width p.hwResW
    heightPt := pt g.height p.hwResH }

/-- A well-formed picture that ppm2pwg is meant to take (PBM: whole bytes per row). -/
structure PnmPage.Wf (g : PnmPage) : Prop where
  comments : ∀ c ∈ g.comments, (10 : UInt8) ∉ c
  sep1 : g.sep1 ≠ [] ∧ ∀ b ∈ g.sep1, isSpace b = true
  sep2 : g.sep2 ≠ [] ∧ ∀ b ∈ g.sep2, isSpace b = true
  last : isSpace g.last = true
  width : g.width < 2 ^ 32
  height : g.height < 2 ^ 32
  whole : g.kind = .pbm → 8 ∣ g.width
  size : g.pixels.length = g.height * rowBytes g.kind.mode g.width

end Verif.Raster.Spec
