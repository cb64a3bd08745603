import Verif.Tests.Basic
import Verif.Model.Tree
import Verif.Model.Build
import Verif.Model.Settings
import Verif.Model.Snapshot

/-! # The tests in the documentation and `examples/panel.rs` -/

namespace Metrix.Tests

/-! ## Snapshots: `src/snapshot.rs:63-95, 145-186` -/

/-- `inner` -/
def inner : ItemKind := .snapshot [("c", .uint 42)]

/-- `snapshot` -/
def snapshot : Snapshot := [("a", .uint 23), ("b", inner)]

example : snapshot.find "a" = .found (.uint 23) := rfl
example : snapshot.find "a/x" = .found (.uint 23) := rfl
example : snapshot.find "/a/x" = .found (.uint 23) := rfl
example : snapshot.find "b" = .found inner := rfl
example : snapshot.find "b/c" = .found (.uint 42) := rfl
example : snapshot.find "/b//c" = .found (.uint 42) := rfl
example : snapshot.find "b/c/x" = .found (.uint 42) := rfl
example : snapshot.find "" = .notFound := rfl
example : snapshot.find "/" = .notFound := rfl

example : findItem (.snapshot snapshot) ["a"] = .found (.uint 23) := rfl
example : findItem (.snapshot snapshot) ["a", "x"] = .found (.uint 23) := rfl
example : findItem (.snapshot snapshot) ["", "a", "x"] = .found (.uint 23) := rfl
example : findItem (.snapshot snapshot) ["b"] = .found inner := rfl
example : findItem (.snapshot snapshot) ["b", "c"] = .found (.uint 42) := rfl
example : findItem (.snapshot snapshot) ["", "b", "", "c"] = .found (.uint 42) := rfl
example : findItem (.snapshot snapshot) ["b", "c", "x"] = .found (.uint 42) := rfl
example : findItem (.snapshot snapshot) [] = .found (.snapshot snapshot) := rfl
example : findItem (.snapshot snapshot) [""] = .found (.snapshot snapshot) := rfl

/-! ## Instruments -/

/-- `src/instruments/gauge/mod.rs:26-36` -/
example : Passes (do
  let gauge : Gauge := { name := "example" }
  check (none = gauge.value)
  let (gauge, _) ← at_ 0 (gauge.update (.withValue (.signedInteger 12) 0))
  check (some 12 = gauge.value)) := by decide +kernel

/-- `src/instruments/gauge/mod.rs:38-58` -/
example : Passes (do
  let gauge : Gauge := { name := "example" }
  let gauge ← at_ 0 (gauge.set (.signedInteger 12))
  check (some 12 = gauge.value)
  let (gauge, _) ← at_ 0 (gauge.update (.withValue (ChangeRequest.toValue .increment) 0))
  check (some 13 = gauge.value)
  let (gauge, _) ← at_ 0 (gauge.update (.withValue (ChangeRequest.toValue .decrement) 0))
  check (some 12 = gauge.value)
  let (gauge, _) ← at_ 0 (gauge.update (.withValue (ChangeRequest.toValue (.changeBy (-12))) 0))
  check (some 0 = gauge.value)) := by decide +kernel

/-- `src/instruments/counter.rs:18-27` -/
example : Passes (do
  let counter : Counter := { name := "example" }
  let (counter, _) ← at_ 0 (counter.update (.observation 0))
  check (1 = counter.count)) := by decide +kernel

/-- There are no user defined instruments in the tests. -/
instance noInstruments (L : Type) : Custom Empty L := ⟨fun s => s.elim, fun s => s.elim, fun s => s.elim⟩

/-- `src/instruments/panel.rs:21-49`. `add_counter` and the like are given the instruments, which are put behind an adapter for all
labels. That the observation was counted everywhere is added here. -/
example : Passes (do
  let panel ← at_ 0 do
    let panel : Panel Empty Unit ← Panel.acceptingNamed (.label ()) "successful_requests"
    let panel := panel.addCounter (.new { name := "count" })
    let panel := panel.addGauge (.new { name := "last_latency" })
    let panel := panel.addMeter (.new (← Meter.new "per_second"))
    return panel.addHistogram (.new (← Histogram.new "latencies"))
  let (_, n) ← at_ 0 (panel.handle (.observedOneValue () (.signedInteger 12) 0))
  check (n = 4)) := by decide +kernel

/-! ## `examples/panel.rs` -/

/-- `examples/panel.rs:86-95` (`Metric`) -/
inductive Metric
  | effectiveDataTimestamp | effectiveDataLatency | dbDataTimestamp | dbDataLatency | cacheDataTimestamp | cacheDataLatency
  | dataAgeAlert | dataAgeWarning
  deriving DecidableEq

/-- The gauges and the histogram of the three panels `examples/panel.rs:9-76`. -/
def withInstruments (panel : Panel Empty Metric) (timestamp latency : Metric) : M (Panel Empty Metric) := do
  let panel := panel.addGauge (.forLabel timestamp { name := "epoch_ms" })
  let gauge ← withAllM Gauge.with_ { name := "latency_ms" } [.tracking 60, .groupValues true, .displayTimeUnit .milliseconds]
  let panel := panel.addGauge (.forLabel latency gauge)
  let histogram := withAll Histogram.with_ (← Histogram.new "latency_distribution_ms") [.displayTimeUnit .milliseconds]
  return panel.addHistogram (.forLabel latency histogram)

/-- The timers `examples/panel.rs:33-42`. -/
def timer (name : String) (label : Metric) : Handler Empty Metric :=
  .instrument (.forLabel label (.staircaseTimer (withAll StaircaseTimer.with_ { name } [.duration 90000000000])))

/-- `data_panel`, `examples/panel.rs:6-76`. -/
def dataPanel : M (Panel Empty Metric) := do
  let panel ← Panel.acceptingNamed .acceptAllLabels "data_freshness"
  let effective ← Panel.acceptingNamed
    (.quad .effectiveDataTimestamp .effectiveDataLatency .dataAgeAlert .dataAgeWarning) "effective"
  let effective ← withInstruments effective .effectiveDataTimestamp .effectiveDataLatency
  let effective := (effective.addHandler (timer "alert" .dataAgeAlert)).addHandler (timer "warning" .dataAgeWarning)
  let db ← withInstruments (← Panel.acceptingNamed (.pair .dbDataTimestamp .dbDataLatency) "db") .dbDataTimestamp .dbDataLatency
  let cache ← withInstruments (← Panel.acceptingNamed (.pair .cacheDataTimestamp .cacheDataLatency) "cache")
    .cacheDataTimestamp .cacheDataLatency
  return ((panel.addPanel effective).addPanel db).addPanel cache

/-- What the example prints: a histogram without values is shown with its count only, of a gauge without a value at most the
empty group is shown, and the timers are off. -/
example : (at_ 0 do
    let panel ← dataPanel
    let (_, shown) ← panel.putSnapshot false []
    return shown) =
  some [("data_freshness", .snapshot [
    ("effective", .snapshot [
      ("latency_distribution_ms", .snapshot [("count", .uint 0)]),
      ("latency_ms", .snapshot []),
      ("alert", .boolean false),
      ("warning", .boolean false)]),
    ("db", .snapshot [("latency_distribution_ms", .snapshot [("count", .uint 0)]), ("latency_ms", .snapshot [])]),
    ("cache", .snapshot [("latency_distribution_ms", .snapshot [("count", .uint 0)]), ("latency_ms", .snapshot [])])])] := rfl

end Metrix.Tests
