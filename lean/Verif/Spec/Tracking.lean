import Verif.Spec.History
import Verif.Spec.Gauge
import Verif.Spec.Ring
import Verif.Spec.Float

/-! # What a gauge that tracks its values shows -/

namespace Metrix

/-- A value and the moment it was recorded. -/
structure Recorded where
  time : Int
  value : Int

/-- What a gauge that initially shows `cur` records: at each update that carries a value, the value it
shows afterwards. -/
def recordings (clock : Nat → Int) (unit : TimeUnit) : Option Int → List (Event Update) → List Recorded
  | _, [] => []
  | cur, ⟨start, .input u, _, _⟩ :: log =>
    let next := (gaugeShows cur [u.change unit]).map wrapI64
    match u, next with
    | .withValue _ _, some v => ⟨clock start, v⟩ :: recordings clock unit next log
    | _, _ => recordings clock unit next log
  | cur, ⟨_, .snapshot _ _, _, _⟩ :: log => recordings clock unit cur log

/-- The values recorded in a second; second 0 starts at `t0`. -/
def valuesIn (t0 : Int) (recs : List Recorded) (second : Int) : List Int :=
  (recs.filter fun r => secondOf t0 r.time = second).map (·.value)

/-- The values recorded in each of the last `n` seconds, the current second first. -/
def window (t0 : Int) (n : Nat) (now : Int) (recs : List Recorded) : List (List Int) :=
  (windowSeconds n (secondOf t0 now)).map (valuesIn t0 recs)

/-- The greatest values of the seconds in which there were values. -/
def maxima (perSecond : List (List Int)) : List Int := perSecond.filterMap List.max?

/-- The least values of the seconds in which there were values. -/
def minima (perSecond : List (List Int)) : List Int := perSecond.filterMap List.min?

/-- `a / b` of two integers as floats. -/
def quotient (rnd : Rat → Rat) (a b : Int) : F64 := .fin (rnd (rnd a / rnd b))

/-- The statistics of the values of a window. Without values they all are the current one.
Sums wrap around at 64 bits. -/
structure IsStats (rnd : Rat → Rat) (current : Int) (perSecond : List (List Int)) (s : BucketsStats) : Prop where
  empty : perSecond.flatten = [] → s.peak = current ∧ s.peakMin = current ∧ s.bottom = current ∧
    s.bottomMax = current ∧ s.avg = .fin (rnd current) ∧ s.peakAvg = .fin (rnd current) ∧
    s.bottomAvg = .fin (rnd current)
  peak : perSecond.flatten ≠ [] → perSecond.flatten.max? = some s.peak
  bottom : perSecond.flatten ≠ [] → perSecond.flatten.min? = some s.bottom
  avg : perSecond.flatten ≠ [] →
    s.avg = quotient rnd (wrapI64 perSecond.flatten.sum) perSecond.flatten.length
  peakMin : perSecond.flatten ≠ [] → (maxima perSecond).min? = some s.peakMin
  bottomMax : perSecond.flatten ≠ [] → (minima perSecond).max? = some s.bottomMax
  peakAvg : perSecond.flatten ≠ [] →
    s.peakAvg = quotient rnd (wrapI64 (maxima perSecond).sum) perSecond.length
  bottomAvg : perSecond.flatten ≠ [] →
    s.bottomAvg = quotient rnd (wrapI64 (minima perSecond).sum) perSecond.length

/-- The items that show statistics. -/
def statItems (pre : String) (s : BucketsStats) : Snapshot :=
  [(pre ++ "peak", .int s.peak), (pre ++ "peak_min", .int s.peakMin), (pre ++ "peak_avg", .float s.peakAvg),
   (pre ++ "bottom", .int s.bottom), (pre ++ "bottom_max", .int s.bottomMax),
   (pre ++ "bottom_avg", .float s.bottomAvg), (pre ++ "avg", .float s.avg)]

end Metrix
