import Verif.Raster.Pnm

/-!
# A check of the model against the sample files of /repo (a test, not a property)

tests/pacman.ppm is given to the model of ppm2pwg, with the default parameters of ppm2pwg_main.cpp 36-38; the result is tests/pacman.pwg, byte
for byte (as the test `ppm2pwg` at tests/test.cpp 202-229 demands of the program).
-/

namespace Verif.Check

open Verif.Raster

/-- tests/pacman.ppm -/
def pacmanPpm : Bytes :=
  [80, 54, 10, 56, 32, 56, 10, 50, 53, 53, 10, 255, 255, 255, 255, 255, 0, 255, 255, 0, 255, 255, 0, 255, 255,
   255, 255, 255, 255, 255, 255, 255, 255, 255, 255, 255, 255, 0, 0, 0, 255, 255, 255, 0, 255, 255, 255, 255,
   255, 255, 255, 255, 255, 0, 255, 0, 255, 255, 255, 255, 255, 0, 255, 255, 0, 255, 255, 255, 255, 255, 255,
   255, 255, 255, 0, 255, 0, 0, 255, 0, 0, 255, 0, 255, 255, 0, 255, 255, 0, 255, 255, 0, 255, 255, 255, 255,
   255, 255, 255, 255, 255, 0, 255, 0, 255, 255, 255, 255, 255, 255, 255, 255, 0, 255, 255, 0, 255, 255, 0, 255,
   255, 255, 255, 255, 255, 255, 255, 255, 255, 255, 255, 255, 255, 255, 255, 255, 255, 255, 255, 255, 255, 255,
   255, 255, 255, 255, 255, 255, 255, 255, 255, 255, 255, 255, 255, 255, 0, 0, 255, 0, 0, 255, 0, 0, 255, 0, 0,
   255, 0, 0, 255, 0, 0, 255, 0, 0, 255, 0, 0, 255, 0, 0, 255, 0, 0, 255, 0, 0, 255, 0, 0, 255, 0, 0, 255, 0, 0,
   255, 0, 0, 255, 0, 0]

/-- tests/pacman.pwg -/
def pacmanPwg : Bytes :=
  [82, 97, 83, 50, 80, 119, 103, 82, 97, 115, 116, 101, 114] ++
  List.replicate 269 0 ++
  [1, 44, 0, 0, 1, 44] ++
  List.replicate 59 0 ++
  [1, 0, 0, 0, 0, 0, 0, 0, 0, 0, 0, 0, 2, 0, 0, 0, 2] ++
  List.replicate 15 0 ++
  [8, 0, 0, 0, 8, 0, 0, 0, 0, 0, 0, 0, 8, 0, 0, 0, 24, 0, 0, 0, 24, 0, 0, 0, 0, 0, 0, 0, 19] ++
  List.replicate 19 0 ++
  [3] ++
  List.replicate 35 0 ++
  [1, 0, 0, 0, 1] ++
  List.replicate 17 0 ++
  [255, 255, 255] ++
  List.replicate 1248 0 ++
  [105, 115, 111, 95, 97, 52, 95, 50, 49, 48, 120, 50, 57, 55, 109, 109] ++
  List.replicate 50 0 ++
  [255, 255, 255, 2, 255, 255, 0, 3, 255, 255, 255, 0, 254, 255, 255, 0, 0, 0, 255, 255, 255, 0, 2, 255, 255,
   255, 255, 0, 255, 0, 255, 255, 255, 0, 1, 255, 255, 0, 2, 255, 255, 255, 2, 0, 255, 0, 0, 2, 255, 255, 0, 2,
   255, 255, 255, 255, 0, 255, 0, 255, 255, 255, 0, 0, 255, 255, 255, 2, 255, 255, 0, 3, 255, 255, 255, 0, 7,
   255, 255, 255, 1, 7, 255, 0, 0]

/-- 8 pixels at 300 dpi are 1.92 points, rounded 2. -/
example : (let r := readPnm (fun _ _ => 2) { format := .PWG } 1 pacmanPpm
    (r.2, encodePages r.1)) = (PnmEnd.done, .ok (pacmanPwg.drop 4)) ∧ pacmanPwg.take 4 = pwgFileHdr := by
  decide +kernel

end Verif.Check
