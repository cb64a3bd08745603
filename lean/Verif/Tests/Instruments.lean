import Verif.Tests.Basic
import Verif.Model.Build
import Verif.Model.Made
import Verif.Model.Histogram

/-! # Tests of label filters and instruments, from the modules `test` in `src/instruments/` -/

namespace Metrix.Tests

/-! ## Label filters: `src/instruments/label_filter.rs:269-497` -/

/-- `empty_filter`, `src/instruments/label_filter.rs:274` -/
example : let filter : LabelFilter Nat := .acceptNone
    ¬ filter.accepts 1 := by decide

/-- `accept_all_filter`, `src/instruments/label_filter.rs:280` -/
example : let filter : LabelFilter Nat := .acceptAll
    filter.accepts 1 ∧ filter.accepts 2 ∧ filter.accepts 3 := by decide

/-- `accept_one_filter`, `src/instruments/label_filter.rs:288` -/
example : let filter : LabelFilter Nat := Labels.toFilter (.label 1)
    ¬ filter.accepts 0 ∧ filter.accepts 1 ∧ ¬ filter.accepts 2 ∧ ¬ filter.accepts 3 ∧ ¬ filter.accepts 4 ∧ ¬ filter.accepts 5 ∧ ¬ filter.accepts 6 := by decide

/-- `accept_two_filter`, `src/instruments/label_filter.rs:300` -/
example : let filter : LabelFilter Nat := Labels.toFilter (.pair 1 2)
    ¬ filter.accepts 0 ∧ filter.accepts 1 ∧ filter.accepts 2 ∧ ¬ filter.accepts 3 ∧ ¬ filter.accepts 4 ∧ ¬ filter.accepts 5 ∧ ¬ filter.accepts 6 := by decide

/-- `accept_three_filter`, `src/instruments/label_filter.rs:312` -/
example : let filter : LabelFilter Nat := Labels.toFilter (.triple 1 2 3)
    ¬ filter.accepts 0 ∧ filter.accepts 1 ∧ filter.accepts 2 ∧ filter.accepts 3 ∧ ¬ filter.accepts 4 ∧ ¬ filter.accepts 5 ∧ ¬ filter.accepts 6 := by decide

/-- `accept_four_filter`, `src/instruments/label_filter.rs:324` -/
example : let filter : LabelFilter Nat := Labels.toFilter (.quad 1 2 3 4)
    ¬ filter.accepts 0 ∧ filter.accepts 1 ∧ filter.accepts 2 ∧ filter.accepts 3 ∧ filter.accepts 4 ∧ ¬ filter.accepts 5 ∧ ¬ filter.accepts 6 := by decide

/-- `accept_five_filter`, `src/instruments/label_filter.rs:336` -/
example : let filter : LabelFilter Nat := Labels.toFilter (.quint 1 2 3 4 5)
    ¬ filter.accepts 0 ∧ filter.accepts 1 ∧ filter.accepts 2 ∧ filter.accepts 3 ∧ filter.accepts 4 ∧ filter.accepts 5 ∧ ¬ filter.accepts 6 := by decide

/-- `accept_many_filter`, `src/instruments/label_filter.rs:348` -/
example : let filter : LabelFilter Nat := Labels.toFilter (.list [1, 2, 3, 4, 5])
    ¬ filter.accepts 0 ∧ filter.accepts 1 ∧ filter.accepts 2 ∧ filter.accepts 3 ∧ filter.accepts 4 ∧ filter.accepts 5 ∧ ¬ filter.accepts 6 := by decide

/-- `many_filters`, `src/instruments/label_filter.rs:360` -/
example : ∀ n ∈ List.range' 1 19, ∀ labels, labels = List.range' 1 n →
    let filter : LabelFilter Nat := Labels.toFilter (.list labels)
    ¬ filter.accepts 0 ∧ ¬ filter.accepts 20 ∧ ∀ i ∈ labels, filter.accepts i := by
  intro n hn labels h; subst h; revert n; decide +kernel

/-- `empty_filter`, `src/instruments/label_filter.rs:393` -/
example : let filter : LabelFilter Nat := .acceptNone
    ¬ filter.accepts 1 := by decide

/-- `accept_all_filter`, `src/instruments/label_filter.rs:399` -/
example : let filter : LabelFilter Nat := .acceptAll
    filter.accepts 1 ∧ filter.accepts 2 ∧ filter.accepts 3 := by decide

/-- `accept_one_filter`, `src/instruments/label_filter.rs:407` -/
example : let filter : LabelFilter Nat := .one 1
    ¬ filter.accepts 0 ∧ filter.accepts 1 ∧ ¬ filter.accepts 2 ∧ ¬ filter.accepts 3 ∧ ¬ filter.accepts 4 ∧ ¬ filter.accepts 5 ∧ ¬ filter.accepts 6 := by decide

/-- `accept_two_filter`, `src/instruments/label_filter.rs:419` -/
example : let filter : LabelFilter Nat := .two 1 2
    ¬ filter.accepts 0 ∧ filter.accepts 1 ∧ filter.accepts 2 ∧ ¬ filter.accepts 3 ∧ ¬ filter.accepts 4 ∧ ¬ filter.accepts 5 ∧ ¬ filter.accepts 6 := by decide

/-- `accept_three_filter`, `src/instruments/label_filter.rs:431` -/
example : let filter : LabelFilter Nat := .three 1 2 3
    ¬ filter.accepts 0 ∧ filter.accepts 1 ∧ filter.accepts 2 ∧ filter.accepts 3 ∧ ¬ filter.accepts 4 ∧ ¬ filter.accepts 5 ∧ ¬ filter.accepts 6 := by decide

/-- `accept_four_filter`, `src/instruments/label_filter.rs:443` -/
example : let filter : LabelFilter Nat := .four 1 2 3 4
    ¬ filter.accepts 0 ∧ filter.accepts 1 ∧ filter.accepts 2 ∧ filter.accepts 3 ∧ filter.accepts 4 ∧ ¬ filter.accepts 5 ∧ ¬ filter.accepts 6 := by decide

/-- `accept_five_filter`, `src/instruments/label_filter.rs:455` -/
example : let filter : LabelFilter Nat := .five 1 2 3 4 5
    ¬ filter.accepts 0 ∧ filter.accepts 1 ∧ filter.accepts 2 ∧ filter.accepts 3 ∧ filter.accepts 4 ∧ filter.accepts 5 ∧ ¬ filter.accepts 6 := by decide

/-- `accept_many_filter`, `src/instruments/label_filter.rs:467` -/
example : let filter : LabelFilter Nat := .many [1, 2, 3, 4, 5]
    ¬ filter.accepts 0 ∧ filter.accepts 1 ∧ filter.accepts 2 ∧ filter.accepts 3 ∧ filter.accepts 4 ∧ filter.accepts 5 ∧ ¬ filter.accepts 6 := by decide

/-- `many_filters`, `src/instruments/label_filter.rs:479` -/
example : ∀ n ∈ List.range' 1 19, ∀ labels, labels = List.range' 1 n →
    let filter : LabelFilter Nat := labels.foldl .acceptAnother .acceptNone
    ¬ filter.accepts 0 ∧ ¬ filter.accepts 20 ∧ ∀ i ∈ labels, filter.accepts i := by
  intro n hn labels h; subst h; revert n; decide +kernel

/-! ## Durations: `src/instruments/mod.rs:147-254` -/

/-- `duration_to_display_value_from_nanos`, `src/instruments/mod.rs:153` -/
example : Passes (do
  let x ← at_ 0 (durationToDisplayValue 1234567890 .nanoseconds .nanoseconds)
  check (x = 1234567890)
  let x ← at_ 0 (durationToDisplayValue 1234567890 .nanoseconds .microseconds)
  check (x = 1234567)
  let x ← at_ 0 (durationToDisplayValue 1234567890 .nanoseconds .milliseconds)
  check (x = 1234)
  let x ← at_ 0 (durationToDisplayValue 1234567890 .nanoseconds .seconds)
  check (x = 1)) := by decide +kernel

/-- `duration_to_display_value_from_micros`, `src/instruments/mod.rs:178` -/
example : Passes (do
  let x ← at_ 0 (durationToDisplayValue 1234567 .microseconds .nanoseconds)
  check (x = 1234567000)
  let x ← at_ 0 (durationToDisplayValue 1234567 .microseconds .microseconds)
  check (x = 1234567)
  let x ← at_ 0 (durationToDisplayValue 1234567 .microseconds .milliseconds)
  check (x = 1234)
  let x ← at_ 0 (durationToDisplayValue 1234567 .microseconds .seconds)
  check (x = 1)) := by decide +kernel

/-- `duration_to_display_value_from_millis`, `src/instruments/mod.rs:203` -/
example : Passes (do
  let x ← at_ 0 (durationToDisplayValue 1234 .milliseconds .nanoseconds)
  check (x = 1234000000)
  let x ← at_ 0 (durationToDisplayValue 1234 .milliseconds .microseconds)
  check (x = 1234000)
  let x ← at_ 0 (durationToDisplayValue 1234 .milliseconds .milliseconds)
  check (x = 1234)
  let x ← at_ 0 (durationToDisplayValue 1234 .milliseconds .seconds)
  check (x = 1)) := by decide +kernel

/-- `duration_to_display_value_from_seconds`, `src/instruments/mod.rs:228` -/
example : Passes (do
  let x ← at_ 0 (durationToDisplayValue 1 .seconds .nanoseconds)
  check (x = 1000000000)
  let x ← at_ 0 (durationToDisplayValue 1 .seconds .microseconds)
  check (x = 1000000)
  let x ← at_ 0 (durationToDisplayValue 1 .seconds .milliseconds)
  check (x = 1000)
  let x ← at_ 0 (durationToDisplayValue 1 .seconds .seconds)
  check (x = 1)) := by decide +kernel

/-! ## Counters: `src/instruments/counter.rs:176-200` -/

/-- `updates`, `src/instruments/counter.rs:183` -/
example : Passes (do
  let c : Counter := { name := "" }
  check (c.count = 0)
  let (c, _) ← at_ 0 (c.update (.observation 0))
  check (c.count = 1)
  let (c, _) ← at_ 0 (c.update (.observations 1 0))
  check (c.count = 2)
  let (c, _) ← at_ 0 (c.update (.observations 3 0))
  check (c.count = 5)
  let (c, _) ← at_ 0 (c.update (.withValue (.signedInteger 33) 0))
  check (c.count = 6)) := by decide +kernel

/-! ## Histograms: `src/instruments/histogram.rs:340-365` -/

/-- `histogram_without_inactivity_accepts_future_timestamp`, `src/instruments/histogram.rs:341` -/
example : Passes (do
  let h ← at_ 0 (Histogram.new "test")
  let (h, _) ← at_ 1 (h.update (.withValue (.signedInteger 10) (1 + 10000000000)))
  let _ ← at_ 2 (h.update (.withValue (.signedInteger 11) 1))) := by decide +kernel

/-- `histogram_with_inactivity_accepts_future_timestamp`, `src/instruments/histogram.rs:354` -/
example : Passes (do
  let h ← at_ 0 (Histogram.new "test")
  let h := { h with maxInactivity := some 1000000000 }
  let (h, _) ← at_ 1 (h.update (.withValue (.signedInteger 10) (1 + 10000000000)))
  let _ ← at_ 2 (h.update (.withValue (.signedInteger 11) 1))) := by decide +kernel

/-! ## Gauges: `src/instruments/gauge/test.rs` -/

/-- `fresh_node_is_empty`, `src/instruments/gauge/test.rs:8` -/
example : Passes (do
  let g : Gauge := { name := "" }
  check (g.value = none)) := by decide +kernel

/-- `empty_gauge_updates_by_increment`, `src/instruments/gauge/test.rs:15` -/
example : Passes (do
  let g : Gauge := { name := "" }
  check (g.value = none)
  let (g, _) ← at_ 0 (g.update (.withValue (ChangeRequest.toValue .increment) 0))
  check (g.value = some 1)) := by decide +kernel

/-- `empty_gauge_updates_by_increment_by`, `src/instruments/gauge/test.rs:27` -/
example : Passes (do
  let g : Gauge := { name := "" }
  check (g.value = none)
  let (g, _) ← at_ 0 (g.update (.withValue (ChangeRequest.toValue (.incrementBy 5)) 0))
  check (g.value = some 5)) := by decide +kernel

/-- `empty_gauge_updates_by_decrement`, `src/instruments/gauge/test.rs:39` -/
example : Passes (do
  let g : Gauge := { name := "" }
  check (g.value = none)
  let (g, _) ← at_ 0 (g.update (.withValue (ChangeRequest.toValue .decrement) 0))
  check (g.value = some (-1))) := by decide +kernel

/-- `empty_gauge_updates_by_decrement_by`, `src/instruments/gauge/test.rs:51` -/
example : Passes (do
  let g : Gauge := { name := "" }
  check (g.value = none)
  let (g, _) ← at_ 0 (g.update (.withValue (ChangeRequest.toValue (.decrementBy 5)) 0))
  check (g.value = some (-5))) := by decide +kernel

/-- `empty_gauge_updates_with_value`, `src/instruments/gauge/test.rs:63` -/
example : Passes (do
  let g : Gauge := { name := "" }
  check (g.value = none)
  let (g, _) ← at_ 0 (g.update (.withValue (.signedInteger 10) 0))
  check (g.value = some 10)) := by decide +kernel

/-- `empty_gauge_updates_with_duration`, `src/instruments/gauge/test.rs:72` -/
example : Passes (do
  let g : Gauge := { name := "" }
  check (g.value = none)
  let (g, _) ← at_ 0 (g.update (.withValue (.duration 1 .milliseconds) 0))
  check (g.value = some 1000)) := by decide +kernel

/-- `non_empty_gauge_updates_by_increment`, `src/instruments/gauge/test.rs:84` -/
example : Passes (do
  let g : Gauge := { name := "" }
  let (g, _) ← at_ 0 (g.update (.withValue (.signedInteger 0) 0))
  check (g.value = some 0)
  let (g, _) ← at_ 0 (g.update (.withValue (ChangeRequest.toValue .increment) 0))
  check (g.value = some 1)) := by decide +kernel

/-- `non_empty_gauge_updates_by_increment_by`, `src/instruments/gauge/test.rs:97` -/
example : Passes (do
  let g : Gauge := { name := "" }
  let (g, _) ← at_ 0 (g.update (.withValue (.signedInteger 0) 0))
  check (g.value = some 0)
  let (g, _) ← at_ 0 (g.update (.withValue (ChangeRequest.toValue (.incrementBy 5)) 0))
  check (g.value = some 5)) := by decide +kernel

/-- `non_empty_gauge_updates_by_decrement`, `src/instruments/gauge/test.rs:110` -/
example : Passes (do
  let g : Gauge := { name := "" }
  let (g, _) ← at_ 0 (g.update (.withValue (.signedInteger 0) 0))
  check (g.value = some 0)
  let (g, _) ← at_ 0 (g.update (.withValue (ChangeRequest.toValue .decrement) 0))
  check (g.value = some (-1))) := by decide +kernel

/-- `non_empty_gauge_updates_by_decrement_by`, `src/instruments/gauge/test.rs:123` -/
example : Passes (do
  let g : Gauge := { name := "" }
  let (g, _) ← at_ 0 (g.update (.withValue (.signedInteger 0) 0))
  check (g.value = some 0)
  let (g, _) ← at_ 0 (g.update (.withValue (ChangeRequest.toValue (.decrementBy 5)) 0))
  check (g.value = some (-5))) := by decide +kernel

/-- `non_empty_gauge_updates_with_value`, `src/instruments/gauge/test.rs:136` -/
example : Passes (do
  let g : Gauge := { name := "" }
  let (g, _) ← at_ 0 (g.update (.withValue (.signedInteger 0) 0))
  check (g.value = some 0)
  let (g, _) ← at_ 0 (g.update (.withValue (.signedInteger 10) 0))
  check (g.value = some 10)) := by decide +kernel

/-- `non_empty_gauge_updates_with_duration`, `src/instruments/gauge/test.rs:146` -/
example : Passes (do
  let g : Gauge := { name := "" }
  let (g, _) ← at_ 0 (g.update (.withValue (.signedInteger 0) 0))
  check (g.value = some 0)
  let (g, _) ← at_ 0 (g.update (.withValue (.duration 1 .milliseconds) 0))
  check (g.value = some 1000)) := by decide +kernel

/-- `gauge_for_all_labels`, `src/instruments/gauge/test.rs:159` -/
example : Passes (do
  let a : GaugeAdapter Nat := GaugeAdapter.forAllLabels { name := "" }
  check (a.gauge.value = none)
  let (a, _) ← at_ 0 (do a.handle (← Observation.makeObservedOneValueNow 1 (ChangeRequest.toValue .increment)))
  check (a.gauge.value = some 1)
  let (a, _) ← at_ 0 (do a.handle (← Observation.makeObservedOneValueNow 2 (ChangeRequest.toValue .decrement)))
  check (a.gauge.value = some 0)
  let (a, _) ← at_ 0 (do a.handle (← Observation.makeObservedOneValueNow 3 (.signedInteger 10)))
  check (a.gauge.value = some 10)
  let (a, _) ← at_ 0 (do a.handle (← Observation.makeObservedOneValueNow 4 (.duration 1 .milliseconds)))
  check (a.gauge.value = some 1000)) := by decide +kernel

/-- `gauge_for_label_label_exists`, `src/instruments/gauge/test.rs:180` -/
example : Passes (do
  let a : GaugeAdapter Nat := GaugeAdapter.forLabel 1 { name := "" }
  check (a.gauge.value = none)
  let (a, _) ← at_ 0 (do a.handle (← Observation.makeObservedOneValueNow 1 (ChangeRequest.toValue .increment)))
  check (a.gauge.value = some 1)
  let (a, _) ← at_ 0 (do a.handle (← Observation.makeObservedOneValueNow 1 (ChangeRequest.toValue .decrement)))
  check (a.gauge.value = some 0)
  let (a, _) ← at_ 0 (do a.handle (← Observation.makeObservedOneValueNow 0 (ChangeRequest.toValue .decrement)))
  check (a.gauge.value = some 0)
  let (a, _) ← at_ 0 (do a.handle (← Observation.makeObservedOneValueNow 1 (.signedInteger 10)))
  check (a.gauge.value = some 10)
  let (a, _) ← at_ 0 (do a.handle (← Observation.makeObservedOneValueNow 1 (.duration 1 .milliseconds)))
  check (a.gauge.value = some 1000)) := by decide +kernel

/-- `gauge_for_label_label_does_not_exist`, `src/instruments/gauge/test.rs:204` -/
example : Passes (do
  let a : GaugeAdapter Nat := GaugeAdapter.forLabel 1 { name := "" }
  check (a.gauge.value = none)
  let (a, _) ← at_ 0 (do a.handle (← Observation.makeObservedOneValueNow 0 (ChangeRequest.toValue .increment)))
  check (a.gauge.value = none)) := by decide +kernel

/-- `gauge_for_labels`, `src/instruments/gauge/test.rs:213` -/
example : Passes (do
  let a : GaugeAdapter String := GaugeAdapter.forLabels ["a", "b", "c"] { name := "" }
  check (a.gauge.value = none)
  let (a, _) ← at_ 0 (do a.handle (← Observation.makeObservedOneValueNow "a" (ChangeRequest.toValue .increment)))
  check (a.gauge.value = some 1)
  let (a, _) ← at_ 0 (do a.handle (← Observation.makeObservedOneValueNow "xxx" (ChangeRequest.toValue .increment)))
  check (a.gauge.value = some 1)
  let (a, _) ← at_ 0 (do a.handle (← Observation.makeObservedOneValueNow "c" (ChangeRequest.toValue .decrement)))
  check (a.gauge.value = some 0)
  let (a, _) ← at_ 0 (do a.handle (← Observation.makeObservedOneValueNow "yyy" (ChangeRequest.toValue .decrement)))
  check (a.gauge.value = some 0)
  let (a, _) ← at_ 0 (do a.handle (← Observation.makeObservedOneValueNow "b" (.signedInteger 10)))
  check (a.gauge.value = some 10)
  let (a, _) ← at_ 0 (do a.handle (← Observation.makeObservedOneValueNow "c" (.duration 1 .seconds)))
  check (a.gauge.value = some 1000000)) := by decide +kernel

/-- `gauge_for_label_deltas_only`, `src/instruments/gauge/test.rs:240` -/
example : Passes (do
  let a : GaugeAdapter String := GaugeAdapter.forLabelDeltasOnly "ok" { name := "" }
  check (a.gauge.value = none)
  let (a, _) ← at_ 0 (do a.handle (← Observation.makeObservedOneValueNow "ok" (.signedInteger 5)))
  check (a.gauge.value = none)
  let (a, _) ← at_ 0 (do a.handle (← Observation.makeObservedOneValueNow "xxx" (ChangeRequest.toValue .increment)))
  check (a.gauge.value = none)
  let (a, _) ← at_ 0 (do a.handle (← Observation.makeObservedOneValueNow "ok" (ChangeRequest.toValue .decrement)))
  check (a.gauge.value = some (-1))
  let (a, _) ← at_ 0 (do a.handle (← Observation.makeObservedNow "ok" 200))
  check (a.gauge.value = some (-1))
  let (a, _) ← at_ 0 (do a.handle (← Observation.makeObservedOneValueNow "yyy" (ChangeRequest.toValue .decrement)))
  check (a.gauge.value = some (-1))
  let (a, _) ← at_ 0 (do a.handle (← Observation.makeObservedOneValueNow "ok" (ChangeRequest.toValue .increment)))
  check (a.gauge.value = some 0)
  let (a, _) ← at_ 0 (do a.handle (← Observation.makeObservedOneValueNow "ok" (.duration 1 .milliseconds)))
  check (a.gauge.value = some 0)) := by decide +kernel

/-- `gauge_inc_dec_on`, `src/instruments/gauge/test.rs:270` -/
example : Passes (do
  let a : GaugeAdapter String := GaugeAdapter.incDecFor (.label "up") (.label "down") { name := "" }
  check (a.gauge.value = none)
  let (a, _) ← at_ 0 (do a.handle (← Observation.makeObservedOneValueNow "up" (.signedInteger 5)))
  check (a.gauge.value = some 1)
  let (a, _) ← at_ 0 (do a.handle (← Observation.makeObservedOneValueNow "up" (ChangeRequest.toValue .increment)))
  check (a.gauge.value = some 2)
  let (a, _) ← at_ 0 (do a.handle (← Observation.makeObservedOneValueNow "up" (ChangeRequest.toValue .decrement)))
  check (a.gauge.value = some 3)
  let (a, _) ← at_ 0 (do a.handle (← Observation.makeObservedOneValueNow "down" (ChangeRequest.toValue .increment)))
  check (a.gauge.value = some 2)
  let (a, _) ← at_ 0 (do a.handle (← Observation.makeObservedOneValueNow "xxx" (ChangeRequest.toValue .increment)))
  check (a.gauge.value = some 2)
  let (a, _) ← at_ 0 (do a.handle (← Observation.makeObservedNow "down" 5000))
  check (a.gauge.value = some 1)
  let (a, _) ← at_ 0 (do a.handle (← Observation.makeObservedOneValueNow "yyy" (ChangeRequest.toValue .decrement)))
  check (a.gauge.value = some 1)
  let (a, _) ← at_ 0 (do a.handle (← Observation.makeObservedOneValueNow "down" (.duration 1 .milliseconds)))
  check (a.gauge.value = some 0)) := by decide +kernel

/-- `gauge_inc_dec_on_many`, `src/instruments/gauge/test.rs:303` -/
example : Passes (do
  let a : GaugeAdapter String := GaugeAdapter.incDecOnMany ["up1", "up2"] ["down1", "down2"] { name := "" }
  check (a.gauge.value = none)
  let (a, _) ← at_ 0 (do a.handle (← Observation.makeObservedOneValueNow "up1" (.signedInteger 5)))
  check (a.gauge.value = some 1)
  let (a, _) ← at_ 0 (do a.handle (← Observation.makeObservedOneValueNow "up2" (ChangeRequest.toValue .increment)))
  check (a.gauge.value = some 2)
  let (a, _) ← at_ 0 (do a.handle (← Observation.makeObservedOneValueNow "up1" (ChangeRequest.toValue .decrement)))
  check (a.gauge.value = some 3)
  let (a, _) ← at_ 0 (do a.handle (← Observation.makeObservedOneValueNow "down2" (ChangeRequest.toValue .increment)))
  check (a.gauge.value = some 2)
  let (a, _) ← at_ 0 (do a.handle (← Observation.makeObservedOneValueNow "xxx" (ChangeRequest.toValue .increment)))
  check (a.gauge.value = some 2)
  let (a, _) ← at_ 0 (do a.handle (← Observation.makeObservedNow "down1" 5000))
  check (a.gauge.value = some 1)
  let (a, _) ← at_ 0 (do a.handle (← Observation.makeObservedOneValueNow "yyy" (ChangeRequest.toValue .decrement)))
  check (a.gauge.value = some 1)
  let (a, _) ← at_ 0 (do a.handle (← Observation.makeObservedOneValueNow "down1" (.duration 1 .milliseconds)))
  check (a.gauge.value = some 0)) := by decide +kernel

end Metrix.Tests
