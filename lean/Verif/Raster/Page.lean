import Verif.Core.Text
import Verif.Params.Model
import Verif.Raster.Codec
import Verif.Raster.Header

/-!
# Model of page encoding and of the raster tools' page loops
(lib/ppm2pwg.cpp, utils/pwg2ppm_main.cpp, lib/pwg2ppm.cpp)
-/

set_option linter.unusedVariables false

namespace Verif.Raster

/-- `make_pwg_file_hdr`, ppm2pwg.cpp 19-24. -/
def pwgFileHdr : Bytes := ascii "RaS2"

/-- `make_urf_file_hdr`, ppm2pwg.cpp 26-31. -/
def urfFileHdr (pages : Nat) : Bytes := ascii "UNIRAST" ++ (be8 0 ++ be32 pages)

/-- ppm2pwg.cpp 204-212, with the values of lib/pwgpghdr.codable. -/
def pwgColorSpace : ColorMode → Nat
  | .sRGB24 => 19
  | .CMYK32 => 6
  | .Gray8 => 18
  | .Black8 => 3
  | .Gray1 => 18
  | .Black1 => 3
  | .sRGB48 => 19
  | .Gray16 => 18

/-- `make_pwg_hdr`, ppm2pwg.cpp 200-240: the header that is encoded. -/
def makePwgHdr (p : Params) (backside : Bool) : Outcome PwgHdr := do
  let bytesPerLine ← p.widthBytes
  return {
    MediaType := p.mediaType
    Duplex := p.isTwoSided.toNat
    HWResolutionX := p.hwResW
    HWResolutionY := p.hwResH
    MediaPosition := p.mediaPosition
    NumCopies := 1
    PageSizeX := p.widthPt
    PageSizeY := p.heightPt
    Tumble := (p.duplexMode == .TwoSidedShortEdge).toNat
    Width := p.widthPx
    Height := p.heightPx
    BitsPerColor := p.bitsPerColor
    BitsPerPixel := p.numberOfColors * p.bitsPerColor
    BytesPerLine := bytesPerLine
    ColorSpace := pwgColorSpace p.colorMode
    NumColors := p.numberOfColors
    TotalPageCount := 0
    CrossFeedTransform := if backside && p.backHFlip then -1 else 1
    FeedTransform := if backside && p.backVFlip then -1 else 1
    AlternatePrimary := 0x00ffffff
    PrintQuality := p.quality.toNat
    PageSizeName := p.paperSizeName }

/-- ppm2pwg.cpp 251-256 with the values of lib/urfpghdr.codable; `map::at` throws for other modes. -/
def urfColorSpace : ColorMode → Outcome Nat
  | .sRGB24 => .ok 1
  | .CMYK32 => .ok 6
  | .Gray8 => .ok 0
  | .sRGB48 => .ok 1
  | .Gray16 => .ok 0
  | _ => .throws .outOfRange

/-- ppm2pwg.cpp 258-261 with the values of lib/urfpghdr.codable. -/
def urfDuplex : DuplexMode → Nat
  | .OneSided => 1
  | .TwoSidedLongEdge => 3
  | .TwoSidedShortEdge => 2

/-- `UrfMediaTypeMappings`, ppm2pwg.cpp 179-193, with the values of lib/urfpghdr.codable. -/
def urfMediaTypes : List (Bytes × Nat) :=
  [(ascii "auto", 0), (ascii "stationery", 1), (ascii "transparency", 2), (ascii "envelope", 3),
   (ascii "cardstock", 4), (ascii "labels", 5), (ascii "stationery-letterhead", 6), (ascii "disc", 7),
   (ascii "photographic-matte", 8), (ascii "photographic-satin", 9),
   (ascii "photographic-semi-gloss", 10), (ascii "photographic-glossy", 11),
   (ascii "photographic-high-gloss", 12), (ascii "other", 13)]

/-- `isUrfMediaType`, ppm2pwg.cpp 195-198. -/
def isUrfMediaType (t : Bytes) : Bool := (urfMediaTypes.lookup t).isSome

/-- ppm2pwg.cpp 267-268 -/
def urfMediaType (t : Bytes) : Outcome Nat :=
  if t = [] then .ok 0
  else match urfMediaTypes.lookup t with
    | some n => .ok n
    | none => .throws .outOfRange

/-- `make_urf_hdr`, ppm2pwg.cpp 242-277: the header that is encoded. -/
def makeUrfHdr (p : Params) : Outcome UrfHdr :=
  if p.hwResW ≠ p.hwResH then .throws .logicError
  else do
    let colorSpace ← urfColorSpace p.colorMode
    let mediaType ← urfMediaType p.mediaType
    return {
      BitsPerPixel := p.numberOfColors * p.bitsPerColor
      ColorSpace := colorSpace
      Duplex := urfDuplex p.duplexMode
      Quality := p.quality.toNat
      MediaType := mediaType
      MediaPosition := p.mediaPosition
      Width := p.widthPx
      Height := p.heightPx
      HWRes := p.hwResW }

/-- ppm2pwg.cpp 88: bit reversal of a byte by 64-bit multiplication (the products wrap at 2^64). -/
def bitReverse (b : UInt8) : UInt8 :=
  UInt8.ofNat (((((b.toNat * 0x80200802) % 2 ^ 64) &&& 0x0884422110) * 0x0101010101 % 2 ^ 64) >>> 32)

/-- ppm2pwg.cpp 81-98: the line mirrored left-right in the temporary buffer. -/
def flipLine (bpc c : Nat) (line : Bytes) : Outcome Bytes :=
  if bpc = 1 then .ok (line.reverse.map bitReverse)
  else do
    let cs ← chunksOf c line
    return cs.reverse.flatten

/-- Row `y` of the bitmap as the loop visits it: `row0 + y * oneLine`, ppm2pwg.cpp 51-52, 64. -/
def rowAt (raw : Bytes) (yRes bytesPerLine : Nat) (vflip : Bool) (y : Nat) : Bytes :=
  (raw.drop ((if vflip then yRes - 1 - y else y) * bytesPerLine)).take bytesPerLine

/-- The rows in the order of the loop. -/
def rowsOf (raw : Bytes) (yRes bytesPerLine : Nat) (vflip : Bool) : List Bytes :=
  (List.range yRes).map (rowAt raw yRes bytesPerLine vflip)

/-- ppm2pwg.cpp 65-77: how many of the following rows equal this one; at most 255.
Returns the count and the rows from the new `y` on. -/
def scanRows (this : Bytes) : List Bytes → Nat → Nat × List Bytes
  | [], n => (n, [])
  | x :: xs, n =>
    if this = x then
      if n + 1 = 255 then (n + 1, xs) else scanRows this xs (n + 1)
    else (n, x :: xs)

theorem scanRows_length (this : Bytes) (xs : List Bytes) (n : Nat) :
    (scanRows this xs n).2.length ≤ xs.length := by
  induction xs generalizing n with
  | nil => simp [scanRows]
  | cons x xs ih =>
    simp only [scanRows]
    split
    · split
      · simp
      · have := ih (n + 1); simp; omega
    · simp

/-- ppm2pwg.cpp 80-104: what is given to `compress_line` for a row. -/
def lineData (bpc c : Nat) (hflip : Bool) (this : Bytes) : Outcome Bytes :=
  if hflip then flipLine bpc c this else .ok this

/-- ppm2pwg.cpp 62-105: all rows of the page. -/
def encodeRows (bpc c : Nat) (hflip : Bool) : List Bytes → Outcome Bytes
  | [] => .ok []
  | this :: rest => do
    let r := scanRows this rest 0
    let line ← lineData bpc c hflip this
    let body ← compressLine c line
    let more ← encodeRows bpc c hflip r.2
    return UInt8.ofNat r.1 :: body ++ more
termination_by l => l.length
decreasing_by have := scanRows_length this rest 0; simp; omega

/-- ppm2pwg.cpp 60: the unit of compression. -/
def oneChunk (p : Params) : Nat :=
  if p.bitsPerColor = 1 then p.numberOfColors else p.numberOfColors * p.bitsPerColor / 8

/-- ppm2pwg.cpp 35 -/
def isBackside (p : Params) (page : Nat) : Bool := p.isTwoSided && page % 2 == 0

/-- ppm2pwg.cpp 39-46: the bytes of the page header. -/
def pageHdr (p : Params) (backside : Bool) : Outcome Bytes :=
  if p.format ≠ .URF then do
    let h ← makePwgHdr p backside
    return h.encode
  else do
    let h ← makeUrfHdr p
    return h.encode

/-- `bmp_to_pwg(bmpBts, outBts, page, params)`, ppm2pwg.cpp 33-106: what is appended to `outBts`.
Reading past the end of `bmpBts` is undefined behaviour. `bytesPerLine` is assumed to fit an `int` (line 51). `Pointers.lean` has
the same function with its pointers, and without these assumptions. -/
def bmpToPwg (p : Params) (page : Nat) (bmp : Bytes) : Outcome Bytes := do
  let backside := isBackside p page
  let hdr ← pageHdr p backside
  let yRes := p.heightPx
  let bytesPerLine ← p.widthBytes
  if bmp.length < yRes * bytesPerLine then .ub
  else do
    let rows := rowsOf bmp yRes bytesPerLine (backside && p.backVFlip)
    let body ← encodeRows p.bitsPerColor (oneChunk p) (backside && p.backHFlip) rows
    return hdr ++ body

/-- The pages of a document, one `bmp_to_pwg` call after the other (ppm2pwg_main.cpp 153-237, pdf2printable.cpp
128-190): each page has its parameters, its page number and its bitmap. -/
def encodePages : List (Params × Nat × Bytes) → Outcome Bytes
  | [] => .ok []
  | x :: xs => do
    let a ← bmpToPwg x.1 x.2.1 x.2.2
    let b ← encodePages xs
    return a ++ b

/-! ## Reading files back -/

/-- What `write_ppm` is given for one page (pwg2ppm_main.cpp 38-39, 58-59). -/
structure PageOut where
  width : Nat
  height : Nat
  colors : Nat
  bits : Nat
  black : Bool
  bmp : Bytes
  deriving DecidableEq, Repr

theorem rdBytes_length_eq {n : Nat} {s : Bytes} {x : Bytes × Bytes} (h : rdBytes n s = .ok x) :
    x.2.length + n = s.length := by
  have := rdBytes_ok (x := x.1) (r := x.2) h
  rw [this.1, List.length_append, this.2]; omega

theorem getStr_length {n : Nat} {s : Bytes} {x : Bytes × Bytes} (h : getStr n s = .ok x) :
    x.2.length + n = s.length := by
  unfold getStr at h
  rw [Outcome.bind_eq_ok] at h
  obtain ⟨a, ha, h⟩ := h
  have := rdBytes_length_eq ha
  cases h
  exact this

theorem skip_length {n : Nat} {s : Bytes} {x : Unit × Bytes} (h : skip n s = .ok x) :
    x.2.length + n = s.length := by
  unfold skip at h
  rw [Outcome.bind_eq_ok] at h
  obtain ⟨a, ha, h⟩ := h
  have := rdBytes_length_eq ha
  cases h
  exact this

theorem rd32_length {s : Bytes} {x : Nat × Bytes} (h : rd32 s = .ok x) : x.2.length + 4 = s.length := by
  unfold rd32 at h; split at h <;> cases h; simp

theorem rd8_length' {s : Bytes} {x : Nat × Bytes} (h : rd8 s = .ok x) : x.2.length + 1 = s.length := by
  unfold rd8 at h; split at h <;> cases h; simp

theorem decodeRows_length {colors byteWidth : Nat} {urf : Bool} {height : Nat} {out file : Bytes}
    {x : Bytes × Bytes} (h : decodeRows colors byteWidth urf height out file = .ok x) :
    x.2.length ≤ file.length := by
  fun_induction decodeRows colors byteWidth urf height out file with
  | case1 => cases h; simp
  | case3 height out hne l rest y hy ih =>
    have := ih h; have := decodeLine_length hy; simp; omega
  | _ => cases h

/-- `p` reads exactly `n` bytes when it succeeds. -/
def Consumes {α : Type} (p : Bytes → Outcome (α × Bytes)) (n : Nat) : Prop :=
  ∀ s x, p s = .ok x → x.2.length + n = s.length

theorem Consumes.bind {α β : Type} {p : Bytes → Outcome (α × Bytes)} {g : α × Bytes → Outcome (β × Bytes)}
    {n k : Nat} (hp : Consumes p n) (hk : n ≤ k) (hf : ∀ a, Consumes (fun s => g (a, s)) (k - n)) :
    Consumes (fun s => p s >>= g) k := by
  intro s x h
  simp only [Outcome.bind_eq_ok, Prod.exists] at h
  obtain ⟨a, s', h1, h2⟩ := h
  have := hp s _ h1
  have := hf a s' _ h2
  simp only at *
  omega

theorem Consumes.pure {α : Type} (a : α) {k : Nat} (hk : k = 0) :
    Consumes (fun s => Outcome.ok (a, s)) k := by
  intro s x h; cases h; simp [hk]

theorem consumes_getStr (n : Nat) : Consumes (getStr n) n := fun _ _ h => getStr_length h
theorem consumes_skip (n : Nat) : Consumes (skip n) n := fun _ _ h => skip_length h
theorem consumes_rd32 : Consumes rd32 4 := fun _ _ h => rd32_length h
theorem consumes_rd8 : Consumes rd8 1 := fun _ _ h => rd8_length' h

theorem PwgHdr.decode_consumes : Consumes PwgHdr.decode 1796 := by
  unfold PwgHdr.decode
  repeat (first
    | refine Consumes.bind (consumes_getStr _) (by decide) fun _ => ?_; dsimp only
    | refine Consumes.bind (consumes_skip _) (by decide) fun _ => ?_; dsimp only
    | refine Consumes.bind consumes_rd32 (by decide) fun _ => ?_; dsimp only)
  apply Consumes.pure; decide

theorem UrfHdr.decode_consumes : Consumes UrfHdr.decode 32 := by
  unfold UrfHdr.decode
  repeat (first
    | refine Consumes.bind consumes_rd8 (by decide) fun _ => ?_; dsimp only
    | refine Consumes.bind (consumes_skip _) (by decide) fun _ => ?_; dsimp only
    | refine Consumes.bind consumes_rd32 (by decide) fun _ => ?_; dsimp only)
  apply Consumes.pure; decide

/-- pwg2ppm_main.cpp 31-41: the page loop for PWG. `write_ppm`'s arguments are recorded per page. -/
def readPwgPages (file : Bytes) : Outcome (List PageOut) :=
  if file = [] then .ok []
  else match h : PwgHdr.decode file with
    | .ok x =>
      match h2 : rasterToBmp x.2 x.1.BytesPerLine x.1.Height x.1.NumColors false with
      | .ok y => do
        let more ← readPwgPages y.2
        return ⟨x.1.Width, x.1.Height, x.1.NumColors, x.1.BitsPerColor, x.1.ColorSpace == 3, y.1⟩ :: more
      | .throws e => .throws e
      | .ub => .ub
      | .hang => .hang
    | .throws e => .throws e
    | .ub => .ub
    | .hang => .hang
termination_by file.length
decreasing_by
  have h1 := PwgHdr.decode_consumes _ _ h
  have h3 := decodeRows_length h2
  omega

/-- pwg2ppm_main.cpp 50-61: the page loop for URF. `byteWidth` is a `uint32_t` (line 56). -/
def readUrfPages (file : Bytes) : Outcome (List PageOut) :=
  if file = [] then .ok []
  else match h : UrfHdr.decode file with
    | .ok x =>
      match h2 : rasterToBmp x.2 (x.1.Width * (x.1.BitsPerPixel / 8) % 2 ^ 32) x.1.Height
          (x.1.BitsPerPixel / 8) true with
      | .ok y => do
        let more ← readUrfPages y.2
        return ⟨x.1.Width, x.1.Height, x.1.BitsPerPixel / 8, 8, false, y.1⟩ :: more
      | .throws e => .throws e
      | .ub => .ub
      | .hang => .hang
    | .throws e => .throws e
    | .ub => .ub
    | .hang => .hang
termination_by file.length
decreasing_by
  have h1 := UrfHdr.decode_consumes _ _ h
  have h3 := decodeRows_length h2
  omega

/-- What `pwg2ppm` makes of a file, pwg2ppm_main.cpp 26-67. -/
inductive ReadResult where
  /-- a PWG file with these pages -/
  | pwg (pages : List PageOut)
  /-- a URF file with this page count in its header, and these pages -/
  | urf (pageCount : Nat) (pages : List PageOut)
  /-- "Unknown file format" -/
  | unknown
  deriving DecidableEq, Repr

/-- pwg2ppm_main.cpp 26-67 -/
def readRaster (file : Bytes) : Outcome ReadResult :=
  match matchBytes (ascii "RaS2") file with
  | some rest => do
    let pages ← readPwgPages rest
    return .pwg pages
  | none =>
    match matchBytes (ascii "UNIRAST") file with
    | some rest =>
      match matchBytes [0] rest with
      | none => .throws .badMatch
      | some rest => do
        let (n, rest) ← rd32 rest
        let pages ← readUrfPages rest
        return .urf n pages
    | none => .ok .unknown

/-- `invert`, pwg2ppm.cpp 79-87. -/
def invert (bts : Bytes) : Bytes := bts.map (fun b => ~~~b)

/-- One pixel of `cmyk2rgb`, pwg2ppm.cpp 97-100, in `uint8_t` arithmetic. -/
def cmykPixelToRgb (c m y k : UInt8) : Bytes :=
  let w := 255 - k
  [w - c, w - m, w - y]

/-- `cmyk2rgb`, pwg2ppm.cpp 89-104: whole pixels only. -/
def cmyk2rgb : Bytes → Bytes
  | c :: m :: y :: k :: rest => cmykPixelToRgb c m y k ++ cmyk2rgb rest
  | _ => []

/-- `write_ppm`, pwg2ppm.cpp 58-77: the suffix of the file name and the content of the file. -/
def writePpm (o : PageOut) : Bytes × Bytes :=
  let bmp := if o.bits = 1 ∧ !o.black then invert o.bmp
             else if o.colors = 4 then cmyk2rgb o.bmp else o.bmp
  let suffix := if o.colors > 2 then ascii ".ppm" else if o.bits = 8 then ascii ".pgm" else ascii ".pbm"
  let magic := if o.colors > 2 then ascii "P6" else if o.bits = 8 then ascii "P5" else ascii "P4"
  (suffix, magic ++ (ascii "\n" ++ (dec o.width ++ (ascii " " ++ (dec o.height ++
    (ascii "\n255\n" ++ bmp))))))

end Verif.Raster
