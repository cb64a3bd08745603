import Verif.Model.Prelude

/-!
# Running the tests of the crate on the model

The crate was not executed for this work. To find out whether the model behaves like the code, the modules below `Verif.Tests`
repeat the unit tests, the tests in the documentation and the programs in `examples/` of `/repo`: each test is an `example` that runs the
model, and the authors of the crate are those who say what has to come out.
-/

namespace Metrix.Tests

/-- Surroundings in which the clock shows `t`. Tests are run without optimization, and therefore checked for overflow. All numbers in
the tests are `f64` exactly or are compared with a tolerance, so it does not matter here how results are rounded. The values of
`exp` are taken to 20 digits: `1 - exp(-1/12)`, `1 - exp(-1/60)` and `1 - exp(-1/180)`. -/
def showing (t : Int) : Env where
  profile := .debug
  clock := fun _ => t
  instMin := -9223372036854775808000000000
  instMax := 9223372036854775807000000000
  rnd := id
  alpha1 := 7995558537067675211 / 100000000000000000000
  alpha5 := 1652854617838251053 / 100000000000000000000
  alpha15 := 554015199510324912 / 100000000000000000000
  histStats := fun _ vs => {
    max := vs.foldl max (vs.headD 0), min := vs.foldl min (vs.headD 0), mean := .fin 0, stddev := .fin 0
    p25 := 0, p50 := 0, p75 := 0, p95 := 0, p98 := 0, p99 := 0, p999 := 0 }

/-- Run a step while the clock shows `t`. -/
def at_ (t : Int) (x : M α) : Option α := (x (showing t) 0).map (·.1)

/-- `assert!`, `assert_eq!` -/
def check (p : Prop) [Decidable p] : Option Unit := if p then some () else none

/-- The test is run to its end, without a panic and with all assertions met. -/
abbrev Passes (test : Option Unit) : Prop := test = some ()

end Metrix.Tests
