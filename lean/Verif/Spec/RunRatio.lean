import Verif.Spec.DriverMetrics
import Verif.Spec.Float

/-! # What a driver is to show about the share of time that it spends on processing -/

namespace Metrix
variable {σ L : Type} [DecidableEq L] [Custom σ L] [CustomProcessor σ]

omit [DecidableEq L] [Custom σ L] [CustomProcessor σ] in
/-- A duration of `d` nanoseconds in seconds, as an `f64`: the whole seconds plus the rest. -/
def Env.seconds (e : Env) (d : Nat) : Rat :=
  e.rnd (e.rnd ((d / 10 ^ 9 : Nat) : Rat) + e.rnd (e.rnd ((d % 10 ^ 9 : Nat) : Rat) / 10 ^ 9))

omit [DecidableEq L] [Custom σ L] [CustomProcessor σ] in
/-- The share in thousandths, rounded down. -/
def Env.perMille (e : Env) (part whole : Nat) : Int := (e.rnd (e.rnd (e.seconds part / e.seconds whole) * 1000)).floor

/-- `MeasuredIn e x run whole`: in the iteration `x` there was a run, after which the driver had nothing more to do for the moment
(nothing was dropped, and no more than 100 observations were processed). The run took `run` nanoseconds: from the last reading
of the clock before it, `j₁`, to the first one after it, `j₂`. When the driver had had its break `whole` nanoseconds had passed since
the beginning of the iteration. -/
def MeasuredIn (e : Env) (x : TimedIteration σ L) (run whole : Nat) : Prop :=
  ∃ (o : Outcome) (s : Strategy) (ns ns' : List (Node σ L)) (j₁ j₂ j₃ : Nat),
    x.what.outcome = some o ∧ o.dropped = 0 ∧ o.processed ≤ 100 ∧
    x.start < j₁ ∧ processNodes 1000 s ns e (j₁ + 1) = some ((ns', o), j₂) ∧ j₁ < j₂ ∧ j₂ < j₃ ∧ j₃ < x.stop ∧
    (run : Int) = e.clock j₂ - e.clock j₁ ∧ (whole : Int) = e.clock j₃ - e.clock x.start

/-- `RatioAfter e v n tl v' n'`: at first the last share is `v`, and `n` shares were measured; after the iterations `tl` it is
`v'`, and `n'` were measured. -/
inductive RatioAfter (e : Env) : Option Int → Nat → List (TimedIteration σ L) → Option Int → Nat → Prop
  | nil {v n} : RatioAfter e v n [] v n
  /-- The driver was paused, or it has more to do, or it is the last iteration, with a panic. -/
  | busy {v n x tl v' n'} : (∀ o, x.what.outcome = some o → 0 < o.dropped ∨ 100 < o.processed) →
      RatioAfter e v n tl v' n' → RatioAfter e v n (x :: tl) v' n'
  /-- No time had passed. -/
  | tooShort {v n x tl v' n' run whole} : MeasuredIn e x run whole → e.seconds whole ≤ 0 →
      RatioAfter e v n tl v' n' → RatioAfter e v n (x :: tl) v' n'
  | measured {v n x tl v' n' run whole} : MeasuredIn e x run whole → 0 < e.seconds whole →
      RatioAfter e (some (e.perMille run whole)) (n + 1) tl v' n' → RatioAfter e v n (x :: tl) v' n'

end Metrix
