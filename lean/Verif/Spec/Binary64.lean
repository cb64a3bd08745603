import Mathlib.Data.Int.Log
import Verif.Spec.Float

/-! # Rounding to `f64`

IEEE 754 binary64, round to nearest, ties to even, with gradual underflow. Numbers that are too large for `f64` keep 53
significant bits here, the model has no overflow. -/

namespace Metrix

/-- The nearest integer; the even one if there are two. -/
def nearestEven (q : Rat) : Int :=
  let f := ⌊q⌋
  if q - f < 1 / 2 then f
  else if 1 / 2 < q - f then f + 1
  else if f % 2 = 0 then f else f + 1

/-- The exponent of the last of the 53 bits of a positive number, at least that of the smallest number, 2^-1074. -/
def lastBit (x : Rat) : Int := max (Int.log 2 x - 52) (-1074)

/-- Rounding to `f64`. -/
def binary64 (x : Rat) : Rat :=
  if 0 ≤ x then nearestEven (x / 2 ^ lastBit x) * 2 ^ lastBit x
  else -(nearestEven (-x / 2 ^ lastBit (-x)) * 2 ^ lastBit (-x))

end Metrix
