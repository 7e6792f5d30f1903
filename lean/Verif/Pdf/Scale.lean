import Verif.Params.Pages

/-!
# Where a page goes on the paper: `fixup_scale`, lib/pdf2printable.cpp 313-356

Doubles are rationals, rounded after each operation (`Core/Double.lean`); a multiplication and a subtraction are taken not to be fused. Sizes in
pixels are below 2^53, so that making them doubles does not change them.
-/

namespace Verif.Pdf

/-- What `fixup_scale` sets. `w`, `h` are `wIn`, `hIn` afterwards. -/
structure Scale where
  xScale : Rat
  yScale : Rat
  xOffset : Rat
  yOffset : Rat
  rotate : Bool
  w : Rat
  h : Rat
  deriving DecidableEq, Repr

/-- Lines 338, 339. `roundf` takes a `float`. -/
def offset (out : Nat) (w scale : Rat) : Int := roundAway (flt (dbl (dbl (out - dbl (w * scale)) / 2)))

/-- Lines 313-356. `raster` is whether the format is PWG or URF. `round2` (lines 50-53) is the same as that of printparameters.h. -/
def fixupScale (raster : Bool) (resW resH : Nat) (paper : Paper) (wIn hIn : Rat) : Scale :=
  let rotate := decide (wIn > hIn)
  let w := if rotate then hIn else wIn
  let h := if rotate then wIn else hIn
  let res := min resW resH
  let hOut := if raster then sizeInPixels paper.units paper.h res else (sizeInPoints paper.units paper.h res).floor.toNat
  let wOut := if raster then sizeInPixels paper.units paper.w res else (sizeInPoints paper.units paper.w res).floor.toNat
  let scale := roundHundredth (min (dbl (wOut / w)) (dbl (hOut / h)))
  let xOffset : Rat := offset wOut w scale
  let yOffset : Rat := offset hOut h scale
  if raster ∧ resW > resH then
    { xScale := dbl (scale * (resW / resH : Nat)), yScale := scale, xOffset := dbl (xOffset * (resW / resH : Nat)), yOffset := yOffset,
      rotate := rotate, w := w, h := h }
  else if raster ∧ resH > resW then
    { xScale := scale, yScale := dbl (scale * (resH / resW : Nat)), xOffset := xOffset, yOffset := dbl (yOffset * (resH / resW : Nat)),
      rotate := rotate, w := w, h := h }
  else { xScale := scale, yScale := scale, xOffset := xOffset, yOffset := yOffset, rotate := rotate, w := w, h := h }

end Verif.Pdf
