import Verif.Spec.History
import Verif.Spec.Values

/-! # What a meter shows -/

namespace Metrix

/-- Something was counted at a moment. -/
structure Mark where
  time : Int
  n : Int

/-- How much an update counts for a `Meter`: its occurrences, but observations of no occurrence and of more
than `i64::MAX` occurrences are not counted. -/
def Update.counted (u : Update) : Option Int :=
  if u.occurrences = 0 ∨ i64Max < u.occurrences then none else some u.occurrences

/-- How much an update counts for a `ValueMeter` with the given display unit: its value. Plain occurrences and
values that do not convert are not counted. -/
def Update.metered (unit : TimeUnit) : Update → Option Int
  | .withValue (.duration v u) _ => some (wrapI64 (displayed v u unit))
  | .withValue v _ => v.convertToI64
  | .observation _ => none
  | .observations _ _ => none

/-- What was counted in a history, oldest first. An update reads the clock last when it counts. -/
def marks (clock : Nat → Int) (amount : Update → Option Int) : List (Event Update) → List Mark
  | [] => []
  | ⟨_, .input u, _, stop⟩ :: log =>
    match amount u with
    | some n => ⟨clock (stop - 1), n⟩ :: marks clock amount log
    | none => marks clock amount log
  | ⟨_, .snapshot _ _, _, _⟩ :: log => marks clock amount log

/-- The sum of everything counted. -/
def total (ms : List Mark) : Int := (ms.map (·.n)).sum

/-- The number of the 5-second interval `t` lies in; interval 0 starts at `start`. At that moment this is
also the number of complete intervals. -/
def intervalOf (start t : Int) : Nat := ((t - start) / tickNs).toNat

/-- What was counted in an interval. -/
def inInterval (start : Int) (ms : List Mark) (i : Nat) : Int :=
  total (ms.filter fun m => intervalOf start m.time = i)

/-- The rate (per nanosecond) in an interval with the given count; rounded. -/
def instantRate (rnd : Rat → Rat) (count : Nat) : Rat := rnd (rnd count / tickNs)

/-- The exponentially weighted moving average after a number of complete intervals: the first interval's
rate, later `r + alpha * (new - r)`; rounded after every operation. -/
def ewmaAfter (rnd : Rat → Rat) (alpha : Rat) (count : Nat → Nat) : Nat → Rat
  | 0 => 0
  | 1 => instantRate rnd (count 0)
  | m + 2 =>
    let r := ewmaAfter rnd alpha count (m + 1)
    rnd (r + rnd (alpha * rnd (instantRate rnd (count (m + 1)) - r)))

/-- The rate per second at time `t` of a meter that was started at `start`. Counts are kept in 64 bits. -/
def rateAt (rnd : Rat → Rat) (alpha : Rat) (start : Int) (ms : List Mark) (t : Int) : Rat :=
  rnd (ewmaAfter rnd alpha (fun i => wrapU64 (inInterval start ms i)) (intervalOf start t) * nanosPerSec)

/-- A rate with the cutoff applied. -/
def withCutoff (cutoff : F64) (rate : Rat) : F64 := if F64.lt (.fin rate) cutoff then .fin 0 else .fin rate

/-- The item that shows a rate, if enabled. -/
def rateItem (cutoff : F64) (name : String) (enabled : Bool) (rate : Rat) : Snapshot :=
  if enabled then [(name, .snapshot [("rate", .float (withCutoff cutoff rate))])] else []

/-- What is in the group of a meter. -/
def meterItems (m : Meter) (count : Nat) (rate1 rate5 rate15 : Rat) : Snapshot :=
  ("count", .uint count) ::
    (rateItem m.lowerCutoff "one_minute" m.oneMinute rate1 ++
     rateItem m.lowerCutoff "five_minutes" m.fiveMinutes rate5 ++
     rateItem m.lowerCutoff "fifteen_minutes" m.fifteenMinutes rate15)

end Metrix
