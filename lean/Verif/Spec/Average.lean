import Verif.Spec.Meter
import Mathlib.Algebra.BigOperators.Group.Finset.Basic

/-! # Weighted averages of what was counted -/

namespace Metrix

/-- How much interval `i` counts in an average over the intervals `0, …, n`: the newest one `alpha`, each older one by the factor
`1 - alpha` less, and the very first one what is left. -/
def weightOf (alpha : Rat) (n i : Nat) : Rat := if i = 0 then (1 - alpha) ^ n else alpha * (1 - alpha) ^ (n - i)

/-- The average, per second, of what was counted in the first `n` intervals of 5 seconds. Without intervals it is 0. -/
def averageOf (alpha : Rat) (count : Nat → Rat) : Nat → Rat
  | 0 => 0
  | n + 1 => ∑ i ∈ Finset.range (n + 1), weightOf alpha n i * (count i / 5)

end Metrix
