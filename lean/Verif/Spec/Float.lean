import Mathlib.Data.Rat.Floor

/-! # What is assumed about float rounding where it matters -/

namespace Metrix

/-- Rounding to `f64`: monotone, and exact on integers up to 2^53. -/
structure IsRounding (rnd : Rat → Rat) : Prop where
  mono : Monotone rnd
  exact : ∀ n : Int, |n| ≤ 2 ^ 53 → rnd n = n

/-- Rounding to `f64`, what is needed for moving averages: monotone, rounded numbers stay what they are,
symmetric around 0, and no positive number is more than doubled (true also for the smallest numbers). -/
structure IsSymmetricRounding (rnd : Rat → Rat) : Prop where
  mono : Monotone rnd
  idem : ∀ x, rnd (rnd x) = rnd x
  odd : ∀ x, rnd (-x) = -rnd x
  double : ∀ x, 0 ≤ x → rnd x ≤ 2 * x

end Metrix
