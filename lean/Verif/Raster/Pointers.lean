import Verif.Raster.Page

/-!
# `bmp_to_pwg` and `compress_line` with their pointers (lib/ppm2pwg.cpp 33-177)

`Page.lean` and `Codec.lean` describe the encoder by rows and chunks. Here the same code is taken as it is written: pointers into the bitmap,
`size_t` values and the `int` that holds the distance of two lines, loops with counters. A pointer is its distance from the start of the buffer
it points into, modulo 2^64, as pointers are computed on 64-bit machines (that computing a pointer outside of a buffer is undefined even when it is never
used, as in line 65 for the last row, is not counted). Reading or writing outside of a buffer is undefined.

Loops have a number of rounds after which they count as endless: one more than the bytes or rows they go through.
-/

namespace Verif.Raster.Ptr

/-- 2^64 -/
def W : Nat := 18446744073709551616

/-- A pointer and a distance; also the sum of two `size_t` -/
def add (p i : Nat) : Nat := (p + i) % W

/-- Reading `n` bytes, by `memcmp`, `memcpy`, `putBytes` or one at a time. -/
def readAt (mem : Bytes) (p n : Nat) : Outcome Bytes :=
  if n = 0 then .ok [] else if p + n ≤ mem.length then .ok ((mem.drop p).take n) else .ub

/-- Writing into the line buffer. -/
def writeAt (tmp : Bytes) (i : Nat) (data : Bytes) : Outcome Bytes :=
  if data = [] then .ok tmp else if i + data.length ≤ tmp.length then .ok (tmp.take i ++ data ++ tmp.drop (i + data.length)) else .ub

/-- `memcmp(a, b, n) == 0` -/
def same (mem : Bytes) (a b n : Nat) : Outcome Bool := do
  let x ← readAt mem a n
  let y ← readAt mem b n
  return decide (x = y)

/-! ## compress_line -/

/-- Lines 124-132: `pos` and `repeat` -/
def repeatLoop (mem : Bytes) (c epos current : Nat) : Nat → Nat → Nat → Outcome (Nat × Nat)
  | 0, _, _ => .hang
  | rounds + 1, pos, rep =>
    if pos = epos then .ok (pos, rep)
    else do
      let eq ← same mem pos current c
      if eq then
        if rep + 1 = 127 then return (add pos c, rep + 1) else repeatLoop mem c epos current rounds (add pos c) (rep + 1)
      else return (pos, rep)

/-- Lines 141-151: `pos` and `verbatim` -/
def verbatimLoop (mem : Bytes) (c epos : Nat) : Nat → Nat → Nat → Outcome (Nat × Nat)
  | 0, _, _ => .hang
  | rounds + 1, pos, verbatim =>
    if verbatim + 1 = 127 then .ok (add pos c, verbatim + 1)
    else if add pos c = epos then .ok (add pos c, verbatim + 1)
    else do
      let eq ← same mem (add pos c) pos c
      if eq then return (add pos c, verbatim + 1) else verbatimLoop mem c epos rounds (add pos c) (verbatim + 1)

/-- Line 120, with `pos` one chunk after `current` -/
def repeats (mem : Bytes) (c epos current : Nat) : Outcome Bool :=
  if add current c = epos then .ok true else same mem (add current c) current c

/-- Lines 114-176, the loop over the line; `start` is `pos` at its head. -/
def compressLoop (mem : Bytes) (c epos : Nat) : Nat → Nat → Outcome Bytes
  | 0, _ => .hang
  | rounds + 1, start =>
    if start = epos then .ok []
    else do
      let eq ← repeats mem c epos start
      if eq then do
        let r ← repeatLoop mem c epos start 128 (add start c) 0
        let cur ← readAt mem start c
        let more ← compressLoop mem c epos rounds r.1
        return UInt8.ofNat r.2 :: cur ++ more
      else do
        let r ← verbatimLoop mem c epos 128 (add start c) 1
        let v := if r.1 ≠ epos then r.2 - 1 else r.2
        if v = 1 then do
          let cur ← readAt mem start c
          let more ← compressLoop mem c epos rounds (add start c)
          return 0 :: cur ++ more
        else do
          let data ← readAt mem start (v * c % W)
          let more ← compressLoop mem c epos rounds (add start (v * c % W))
          return UInt8.ofNat (257 - v) :: data ++ more

/-- `compress_line(raw, len, outBts, oneChunk)`, lines 108-177: what it appends -/
def compressLine (mem : Bytes) (raw len c : Nat) : Outcome Bytes := compressLoop mem c (add raw len) (len + 1) raw

/-! ## bmp_to_pwg -/

/-- Lines 85-89: the line mirrored bit by bit into the buffer -/
def flipBits (mem : Bytes) (line len : Nat) : Nat → Nat → Bytes → Outcome Bytes
  | 0, _, _ => .hang
  | rounds + 1, i, tmp =>
    if i < len then do
      let b ← readAt mem (add line (len - 1 - i)) 1
      let tmp ← writeAt tmp i (b.map bitReverse)
      flipBits mem line len rounds (i + 1) tmp
    else .ok tmp

/-- Lines 93-97: the line mirrored chunk by chunk into the buffer -/
def flipChunks (mem : Bytes) (lastChunk len c : Nat) : Nat → Nat → Bytes → Outcome Bytes
  | 0, _, _ => .hang
  | rounds + 1, i, tmp =>
    if i < len then do
      let d ← readAt mem (add lastChunk (W - i)) c
      let tmp ← writeAt tmp i d
      flipChunks mem lastChunk len c rounds (add i c) tmp
    else .ok tmp

/-- Lines 82-98 -/
def flip (mem : Bytes) (bpc c line len : Nat) (tmp : Bytes) : Outcome Bytes :=
  if bpc = 1 then flipBits mem line len (len + 1) 0 tmp
  else flipChunks mem (add (add line len) (W - c)) len c (len + 1) 0 tmp

/-- Lines 68-77: `y` and `lineRepeat` -/
def rowScan (mem : Bytes) (yRes len oneLine this : Nat) : Nat → Nat → Nat → Nat → Outcome (Nat × Nat)
  | 0, _, _, _ => .hang
  | rounds + 1, y, next, rep =>
    if y + 1 < yRes then do
      let eq ← same mem this next len
      if eq then
        if rep + 1 = 255 then return (y + 1, rep + 1) else rowScan mem yRes len oneLine this rounds (y + 1) (add next oneLine) (rep + 1)
      else return (y, rep)
    else .ok (y, rep)

/-- Lines 80-104: a line, compressed; and the buffer afterwards -/
def putLine (mem : Bytes) (bpc c len : Nat) (hflip : Bool) (this : Nat) (tmp : Bytes) : Outcome (Bytes × Bytes) :=
  if hflip then do
    let tmp ← flip mem bpc c this len tmp
    let body ← compressLine tmp 0 len c
    return (body, tmp)
  else do
    let body ← compressLine mem this len c
    return (body, tmp)

/-- Lines 62-105: the loop over the rows -/
def rowLoop (mem : Bytes) (bpc c yRes len oneLine row0 : Nat) (hflip : Bool) : Nat → Nat → Bytes → Outcome Bytes
  | 0, _, _ => .hang
  | rounds + 1, y, tmp =>
    if y < yRes then do
      let this := add row0 (y * oneLine % W)
      let r ← rowScan mem yRes len oneLine this 256 y (add this oneLine) 0
      let b ← putLine mem bpc c len hflip this tmp
      let more ← rowLoop mem bpc c yRes len oneLine row0 hflip rounds (r.1 + 1) b.2
      return UInt8.ofNat r.2 :: b.1 ++ more
    else .ok []

/-- Line 51: a `size_t` put into an `int`, as it is used in 64-bit arithmetic -/
def viaInt (n : Nat) : Nat :=
  if n % 4294967296 < 2147483648 then n % 4294967296 else n % 4294967296 + (W - 4294967296)

/-- `bmp_to_pwg`, ppm2pwg.cpp 33-106: what is appended to `outBts`. The products of printparameters.cpp 110-124 are made in
`size_t` (a width is at most 2^64 - 2048 there, so that the sum in line 117 fits). `junk` is what the buffer holds when it is made (line 53). -/
def bmpToPwg (p : Params) (page : Nat) (bmp junk : Bytes) : Outcome Bytes := do
  let backside := isBackside p page
  let vflip := backside && p.backVFlip
  let hdr ← pageHdr p backside
  let yRes := p.heightPx
  let bytesPerLine := (← p.widthBytes) % W
  let oneLine := viaInt (if vflip then (W - bytesPerLine) % W else bytesPerLine)
  let row0 := if vflip then add yRes (W - 1) * bytesPerLine % W else 0
  let body ← rowLoop bmp p.bitsPerColor (oneChunk p) yRes bytesPerLine oneLine row0 (backside && p.backHFlip) (yRes + 1) 0 junk
  return hdr ++ body

end Verif.Raster.Ptr
