/-!
# Double precision numbers

A double is a rational number here, and each operation of the code gives the exact result, rounded by `dbl`. The range of the exponent is
not modelled: no overflow, no subnormal numbers, no infinities; the numbers of this program are far from these.
-/

namespace Verif

/-- The exponent of a number that is not zero: `2 ^ expo q ≤ |q| < 2 ^ (expo q + 1)`. -/
def expo (q : Rat) : Int :=
  let e := (Nat.log2 q.num.natAbs : Int) - (Nat.log2 q.den : Int)
  if (q.num.natAbs : Rat) < (2 : Rat) ^ e * (q.den : Rat) then e - 1 else e

/-- To the nearest integer, halves to the even one. -/
def roundEven (x : Rat) : Int :=
  if x - x.floor < 1 / 2 then x.floor
  else if 1 / 2 < x - x.floor then x.floor + 1
  else if x.floor % 2 = 0 then x.floor else x.floor + 1

/-- To the nearest number with 53 significant binary digits, ties to even: the rounding of IEEE 754 binary64. -/
def dbl (q : Rat) : Rat :=
  if q = 0 then 0
  else (roundEven (q / (2 : Rat) ^ (expo q - 52)) : Rat) * (2 : Rat) ^ (expo q - 52)

/-- To the nearest number with 24 significant binary digits, ties to even: the rounding of IEEE 754 binary32, which a `double` that is given to a
function of `float` (`roundf`) undergoes. -/
def flt (q : Rat) : Rat :=
  if q = 0 then 0
  else (roundEven (q / (2 : Rat) ^ (expo q - 23)) : Rat) * (2 : Rat) ^ (expo q - 23)

/-- `round`, `roundf`: to the nearest integer, halves away from zero. -/
def roundAway (q : Rat) : Int := if 0 ≤ q then (q + 1 / 2).floor else -((-q + 1 / 2).floor)

/-- The conversion of a `double` to an integer: towards zero. -/
def truncate (q : Rat) : Int := if 0 ≤ q then q.floor else -((-q).floor)

end Verif
