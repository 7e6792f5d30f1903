import Verif.Convert.Model

/-!
# A check of the model against the raster tests of /repo (tests, not properties)

The command lines and pictures of tests/test.cpp 202-584 are given to the model of ppm2pwg, from the words of the command line to the bytes of the file; what
the tests demand of the program holds of the model.
-/

namespace Verif.Check

open Verif.Raster Verif.Convert

/-- `REPEAT`, test.cpp 17 -/
def rpt (n : Nat) : Bytes := [UInt8.ofNat (n - 1)]

/-- `VERBATIM`, test.cpp 18 -/
def vrb (n : Nat) : Bytes := [UInt8.ofNat (257 - n)]

/-- A sample of `T`, 1 or 2 bytes -/
def sample (size : Nat) (full : Bool) : Bytes := List.replicate size (if full then 255 else 0)

/-- The colors, test.cpp 24-28 -/
def pixel (size : Nat) (r g b : Bool) : Bytes := sample size r ++ sample size g ++ sample size b

section
variable (n : Nat)
def pW := pixel n true true true
def pR := pixel n true false false
def pG := pixel n false true false
def pB := pixel n false false true
def pY := pixel n true true false

/-- `PacmanPpm`, test.cpp 21-39 -/
def pacman : Bytes :=
  ascii "P6\n8 8\n" ++ ascii (if n = 1 then "255" else "65535") ++ ascii "\n" ++
  (let W := pW n; let R := pR n; let G := pG n; let B := pB n; let Y := pY n
   [W, Y, Y, Y, W, W, W, W, Y, B, Y, W, W, W, G, W, Y, Y, W, W, W, G, G, G, Y, Y, Y, W, W, W, G, W, W, Y, Y, Y, W, W, W, W,
    W, W, W, W, W, W, W, W, R, R, R, R, R, R, R, R, R, R, R, R, R, R, R, R]).flatten

/-- `RightSideUp`, test.cpp 42-59 -/
def rightSideUp : Bytes :=
  let W := pW n; let R := pR n; let G := pG n; let B := pB n; let Y := pY n
  ([[0], rpt 1, W, rpt 3, Y, rpt 4, W, [0], vrb 3, Y, B, Y, rpt 3, W, vrb 2, G, W, [0], rpt 2, Y, rpt 3, W, rpt 3, G,
    [0], rpt 3, Y, rpt 3, W, vrb 2, G, W, [0], rpt 1, W, rpt 3, Y, rpt 4, W, [0], rpt 8, W, [1], rpt 8, R]).flatten

/-- `UpsideDown`, test.cpp 62-79 -/
def upsideDown : Bytes :=
  let W := pW n; let R := pR n; let G := pG n; let B := pB n; let Y := pY n
  ([[1], rpt 8, R, [0], rpt 8, W, [0], rpt 1, W, rpt 3, Y, rpt 4, W, [0], rpt 3, Y, rpt 3, W, vrb 2, G, W,
    [0], rpt 2, Y, rpt 3, W, rpt 3, G, [0], vrb 3, Y, B, Y, rpt 3, W, vrb 2, G, W, [0], rpt 1, W, rpt 3, Y, rpt 4, W]).flatten

/-- `Flipped`, test.cpp 82-99 -/
def flipped : Bytes :=
  let W := pW n; let R := pR n; let G := pG n; let B := pB n; let Y := pY n
  ([[0], rpt 4, W, rpt 3, Y, rpt 1, W, [0], vrb 2, W, G, rpt 3, W, vrb 3, Y, B, Y, [0], rpt 3, G, rpt 3, W, rpt 2, Y,
    [0], vrb 2, W, G, rpt 3, W, rpt 3, Y, [0], rpt 4, W, rpt 3, Y, rpt 1, W, [0], rpt 8, W, [1], rpt 8, R]).flatten

/-- `Rotated`, test.cpp 102-119 -/
def rotated : Bytes :=
  let W := pW n; let R := pR n; let G := pG n; let B := pB n; let Y := pY n
  ([[1], rpt 8, R, [0], rpt 8, W, [0], rpt 4, W, rpt 3, Y, rpt 1, W, [0], vrb 2, W, G, rpt 3, W, rpt 3, Y,
    [0], rpt 3, G, rpt 3, W, rpt 2, Y, [0], vrb 2, W, G, rpt 3, W, vrb 3, Y, B, Y, [0], rpt 4, W, rpt 3, Y, rpt 1, W]).flatten
end

/-- `P4_0101`, test.cpp 121-133 -/
def p4 : Bytes :=
  ascii "P4\n24 8\n" ++ [0x8f, 0x78, 0xf7, 0x76, 0x77, 0x67, 0x77, 0x77, 0x77, 0x77, 0x77, 0x77, 0x77, 0x77, 0x77, 0x77, 0x77, 0x77,
    0x8e, 0x38, 0xe3, 0xff, 0xff, 0xff]

/-- `BilevelPwg0101`, test.cpp 135-144 -/
def bilevel : Bytes :=
  ([[0], vrb 3, [0x8f, 0x78, 0xf7], [0], vrb 3, [0x76, 0x77, 0x67], [3], rpt 3, [0x77], [0], vrb 3, [0x8e, 0x38, 0xe3], [0], rpt 3, [0xff]]).flatten

/-- `BilevelPwg0101_UpsideDown`, test.cpp 146-155 -/
def bilevelUpsideDown : Bytes :=
  ([[0], rpt 3, [0xff], [0], vrb 3, [0x8e, 0x38, 0xe3], [3], rpt 3, [0x77], [0], vrb 3, [0x76, 0x77, 0x67], [0], vrb 3, [0x8f, 0x78, 0xf7]]).flatten

/-- `BilevelPwg0101_Flipped`, test.cpp 157-166 -/
def bilevelFlipped : Bytes :=
  ([[0], vrb 3, [0xef, 0x1e, 0xf1], [0], vrb 3, [0xe6, 0xee, 0x6e], [3], rpt 3, [0xee], [0], vrb 3, [0xc7, 0x1c, 0x71], [0], rpt 3, [0xff]]).flatten

/-- `BilevelPwg0101_Rotated`, test.cpp 168-177 -/
def bilevelRotated : Bytes :=
  ([[0], rpt 3, [0xff], [0], vrb 3, [0xc7, 0x1c, 0x71], [3], rpt 3, [0xee], [0], vrb 3, [0xe6, 0xee, 0x6e], [0], vrb 3, [0xef, 0x1e, 0xf1]]).flatten

/-- `run_ppm2pwg`, test.cpp 179-190: the file that it makes, and its exit code -/
def runPpm (args : List String) (input : Bytes) : Done :=
  ppmMain { read := fun n => if n = ascii "-" then some input else none, room := fun _ => none } (args.map ascii ++ [ascii "-", ascii "out"])

/-- What the tests demand of a page header: `CrossFeedTransform`, `FeedTransform`, and `basic_pacman_asserts`, test.cpp 247-257 -/
def pacmanHdr (n : Nat) (cross feed : Int) (h : PwgHdr) : Bool :=
  h.CrossFeedTransform == cross && h.FeedTransform == feed && h.Width == 8 && h.Height == 8 && h.BitsPerColor == 8 * n && h.BitsPerPixel == 24 * n &&
  h.BytesPerLine == 24 * n && h.ColorSpace == 19 && h.NumColors == 3

/-- `basic_bilevel_asserts`, test.cpp 491-500 -/
def bilevelHdr (cross feed : Int) (h : PwgHdr) : Bool :=
  h.CrossFeedTransform == cross && h.FeedTransform == feed && h.Width == 24 && h.Height == 8 && h.BitsPerColor == 1 && h.BitsPerPixel == 1 &&
  h.BytesPerLine == 3 && h.ColorSpace == 3 && h.NumColors == 1

/-- `hdr.decodeFrom(pwg)` and the asserts about it, then `pwg >>= enc`; in the end `pwg.atEnd()` -/
def pagesAre : List ((PwgHdr → Bool) × Bytes) → Bytes → Bool
  | [], rest => rest == []
  | (f, enc) :: more, s =>
    match PwgHdr.decode s with
    | .ok (h, r) => f h && (match matchBytes enc r with
      | some r => pagesAre more r
      | none => false)
    | _ => false

/-- The file starts with `RaS2` and has these pages. -/
def fileIs (d : Done) (pages : List ((PwgHdr → Bool) × Bytes)) : Bool :=
  d.out == .ok 0 && match d.file with
  | some (name, f) => name == ascii "out" && (match matchBytes (ascii "RaS2") f with
    | some r => pagesAre pages r
    | none => false)
  | none => false

/-- ppm2pwg, ppm2pwg_16bit, test.cpp 202-245 -/
example : fileIs (runPpm [] (pacman 1)) [(pacmanHdr 1 1 1, rightSideUp 1)] ∧
    fileIs (runPpm [] (pacman 2)) [(pacmanHdr 2 1 1, rightSideUp 2)] := by decide +kernel

/-- duplex_normal, test.cpp 259-282 -/
example : fileIs (runPpm ["-d"] (pacman 1 ++ pacman 1))
    [(fun h => pacmanHdr 1 1 1 h && h.Duplex == 1 && h.Tumble == 0, rightSideUp 1), (pacmanHdr 1 1 1, rightSideUp 1)] := by decide +kernel

/-- duplex_normal_16bit, test.cpp 284-305 -/
example : fileIs (runPpm ["-d"] (pacman 2 ++ pacman 2)) [(pacmanHdr 2 1 1, rightSideUp 2), (pacmanHdr 2 1 1, rightSideUp 2)] := by decide +kernel

/-- duplex_vflip, duplex_vflip_16bit, test.cpp 307-351 -/
example : ∀ n ∈ [1, 2], fileIs (runPpm ["-d", "--back-xform", "flip"] (pacman n ++ pacman n))
    [(pacmanHdr n 1 1, rightSideUp n), (pacmanHdr n 1 (-1), upsideDown n)] := by decide +kernel

/-- duplex_hflip, duplex_hflip_16bit, test.cpp 353-397 -/
example : ∀ n ∈ [1, 2], fileIs (runPpm ["-d", "-t", "--back-xform", "flip"] (pacman n ++ pacman n))
    [(pacmanHdr n 1 1, rightSideUp n), (pacmanHdr n (-1) 1, flipped n)] := by decide +kernel

/-- duplex_rotated, duplex_rotated_16bit, test.cpp 399-443 -/
example : ∀ n ∈ [1, 2], fileIs (runPpm ["-d", "--back-xform", "rotate"] (pacman n ++ pacman n))
    [(pacmanHdr n 1 1, rightSideUp n), (pacmanHdr n (-1) (-1), rotated n)] := by decide +kernel

/-- two_pages_no_duplex, two_pages_no_duplex_16bit, test.cpp 445-489 -/
example : ∀ n ∈ [1, 2], fileIs (runPpm ["--back-xform", "flip"] (pacman n ++ pacman n))
    [(pacmanHdr n 1 1, rightSideUp n), (pacmanHdr n 1 1, rightSideUp n)] := by decide +kernel

/-- bilevel, test.cpp 502-515 -/
example : fileIs (runPpm [] p4) [(bilevelHdr 1 1, bilevel)] := by decide +kernel

/-- bilevel_vflip, test.cpp 517-538 -/
example : fileIs (runPpm ["-d", "--back-xform", "flip"] (p4 ++ p4)) [(bilevelHdr 1 1, bilevel), (bilevelHdr 1 (-1), bilevelUpsideDown)] := by
  decide +kernel

/-- bilevel_hflip, test.cpp 540-561 -/
example : fileIs (runPpm ["-d", "-t", "--back-xform", "flip"] (p4 ++ p4)) [(bilevelHdr 1 1, bilevel), (bilevelHdr (-1) 1, bilevelFlipped)] := by
  decide +kernel

/-- bilevel_rotated, test.cpp 563-584 -/
example : fileIs (runPpm ["-d", "--back-xform", "rotate"] (p4 ++ p4)) [(bilevelHdr 1 1, bilevel), (bilevelHdr (-1) (-1), bilevelRotated)] := by
  decide +kernel

end Verif.Check
