import Verif.Model.Observation

/-! # Specifications about observed values -/

namespace Metrix

/-- `n` is the integer nearest to `q`, halves away from zero. -/
def Nearest (q : Rat) (n : Int) : Prop :=
  |q - n| ≤ 1 / 2 ∧ (|q - n| = 1 / 2 → |q| < |(n : Rat)|)

/-- Nanoseconds of a unit. -/
def TimeUnit.ns : TimeUnit → Nat
  | .nanoseconds => 1
  | .microseconds => 10 ^ 3
  | .milliseconds => 10 ^ 6
  | .seconds => 10 ^ 9

/-- The value of a duration of `v` units, displayed in another unit: rounded down. -/
def displayed (v : Nat) (unit display : TimeUnit) : Nat := v * unit.ns / display.ns

end Metrix
