import Verif.Model.Observation
import Verif.Model.Util

/-!
# Histogram: `src/instruments/histogram.rs`
-/

namespace Metrix

/-- `src/instruments/histogram.rs:13-23` (`Histogram`). `inner_histogram` is represented by the values it was
fed with since its creation. -/
structure Histogram where
  name : String
  descr : Descr := {}
  inner : List Int := []
  lastUpdate : Int
  maxInactivity : Option Nat := none
  resetAfterInactivity : Bool := true
  showActivityState : Bool := true
  displayTimeUnit : TimeUnit := .microseconds
  deriving DecidableEq

namespace Histogram

/-- `src/instruments/histogram.rs:26-39` (`new`). -/
def new (name : String) : M Histogram := do
  return { name, lastUpdate := ← M.now }

/-- `src/instruments/histogram.rs:310-338` (`HistogramSnapshot::put_snapshot`) applied to the
`HistogramSnapshot` of `src/instruments/histogram.rs:207-234`. -/
def putHistogramValues (h : Histogram) (into : Snapshot) : M Snapshot := do
  let e ← M.env
  let k ← M.readings
  let count := h.inner.length
  if count > 0 then
    let s := e.histStats k h.inner
    let quantiles : Snapshot := [
      ("p25", .int s.p25), ("p50", .int s.p50), ("p75", .int s.p75), ("p95", .int s.p95),
      ("p98", .int s.p98), ("p99", .int s.p99), ("p999", .int s.p999)]
    return into
      |>.push "count" (.uint count)
      |>.push "max" (.int s.max)
      |>.push "min" (.int s.min)
      |>.push "mean" (.float s.mean)
      |>.push "stddev" (.float s.stddev)
      |>.push "quantiles" (.snapshot quantiles)
  else
    return into.push "count" (.uint 0)

/-- `src/instruments/histogram.rs:183-186` (`is_active`). -/
def isActive (h : Histogram) : M Bool :=
  match h.maxInactivity with
  | some d => do return decide (sinceNs (← M.now) h.lastUpdate < d)
  | none => return true

/-- `src/instruments/histogram.rs:182-205` (`put_values_into_snapshot`). -/
def putValues (h : Histogram) (into : Snapshot) : M Snapshot := do
  let active ← h.isActive
  let into :=
    if h.maxInactivity.isSome && h.showActivityState then
      if active then (into.push "_inactive" (.boolean false)).push "_active" (.boolean true)
      else (into.push "_inactive" (.boolean true)).push "_active" (.boolean false)
    else into
  if active then h.putHistogramValues into else return into

/-- `src/instruments/histogram.rs:239-246` (`PutsSnapshot for Histogram`). -/
def putSnapshot (h : Histogram) (into : Snapshot) (descriptive : Bool) : M Snapshot := do
  let into := putPostfixedDescriptives h.descr h.name into descriptive
  let level ← h.putValues []
  return into.push h.name (.snapshot level)

/-- `src/instruments/histogram.rs:250-254`: reset after inactivity. -/
def resetIfDue (h : Histogram) : M Histogram :=
  match h.maxInactivity with
  | some d =>
    if h.resetAfterInactivity then do
      let now ← M.now
      if sinceNs now h.lastUpdate > d then return { h with inner := [] } else return h
    else return h
  | none => return h

/-- `src/instruments/histogram.rs:259-260, 266-267`: record a value. -/
def record (h : Histogram) (v : Int) : M Histogram := do
  let now ← M.now
  return { h with inner := h.inner ++ [v], lastUpdate := now }

/-- `src/instruments/histogram.rs:248-276` (`Updates for Histogram`). -/
def update (h : Histogram) (u : Update) : M (Histogram × Nat) := do
  let h ← h.resetIfDue
  match u with
  | .withValue (.duration time unit) _ => do
    let d ← durationToDisplayValue time unit h.displayTimeUnit
    return (← h.record (wrapI64 d), 1)
  | .withValue v _ =>
    match v.convertToI64 with
    | some v => do return (← h.record v, 1)
    | none => return (h, 0)
  | _ => return (h, 0)

end Histogram
end Metrix
