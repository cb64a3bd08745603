import Verif.Tests.Basic
import Verif.Model.Buckets
import Verif.Model.Gauge

/-! # Tests of the ring of buckets and of the statistics: `src/instruments/fundamentals/buckets.rs:153-617`, `src/instruments/gauge/tracking.rs` -/

namespace Metrix.Tests
open SecondsBuckets

/-- `*buckets.current_mut()` -/
def current (b : SecondsBuckets Nat) : M (SecondsBuckets Nat × Nat) := do
  let b ← b.modifyCurrent pure
  return (b, ← index b.buckets b.currentIdx)

/-- `*buckets.current_mut() = x` -/
def setCurrent (b : SecondsBuckets Nat) (x : Nat) : M (SecondsBuckets Nat) := b.modifyCurrent fun _ => pure x

/-- `buckets.get_at_mut(t).copied()` -/
def getAt? (b : SecondsBuckets Nat) (t : Int) : M (SecondsBuckets Nat × Option Nat) := do
  let (b, i) ← b.getAt t
  return (b, i.bind (b.buckets[·]?))

/-- A second. -/
def s : Int := 1000000000

/-- A millisecond. -/
def ms : Int := 1000000

/-- `buckets_with_one_item_works_without_ticks`, `src/instruments/fundamentals/buckets.rs:161` -/
example : Passes (do
  let b ← at_ (0 * ms) (SecondsBuckets.new (T := Nat) 1)
  let (b, x) ← at_ (0 * ms) (current b)
  check (x = 0)
  let b ← at_ (0 * ms) (setCurrent b 1)
  let (b, x) ← at_ (0 * ms) (current b)
  check (x = 1)
  let (b, x) ← at_ (0 * ms) (getAt? b (0 * ms - 0 * ms))
  check (x = some 1)
  let (b, x) ← at_ (0 * ms) (getAt? b (0 * ms - 999 * ms))
  check (x = some 1)
  let (b, x) ← at_ (0 * ms) (getAt? b (0 * ms - 1 * s))
  check (x = none)
  let (_, all) ← at_ (0 * ms) b.iter
  check (all = [1])) := by decide +kernel

/-- `initial_buckets`, `src/instruments/fundamentals/buckets.rs:189` -/
example : Passes (do
  let b ← at_ (0 * ms) (SecondsBuckets.new (T := Nat) 3)
  check (b.buckets.length = 3)
  let (b, x) ← at_ (0 * ms) (getAt? b (0 * ms - 0 * s))
  check (x = some 0)
  let (b, x) ← at_ (0 * ms) (getAt? b (0 * ms - 1 * s))
  check (x = some 0)
  let (b, x) ← at_ (0 * ms) (getAt? b (0 * ms - 2 * s))
  check (x = some 0)
  let (_, x) ← at_ (0 * ms) (getAt? b (0 * ms - 3 * s))
  check (x = none)) := by decide +kernel

/-- `with_three_initialized_items`, `src/instruments/fundamentals/buckets.rs:214` -/
example : Passes (do
  let b ← at_ (0 * ms) (SecondsBuckets.initialized [1, 2, 3])
  let (b, x) ← at_ (0 * ms) (current b)
  check (x = 3)
  let (b, x) ← at_ (0 * ms) (getAt? b (0 * ms - 0 * s))
  check (x = some 3)
  let (b, x) ← at_ (0 * ms) (getAt? b (0 * ms - 1 * s))
  check (x = some 2)
  let (b, x) ← at_ (0 * ms) (getAt? b (0 * ms - 2 * s))
  check (x = some 1)
  let (b, x) ← at_ (0 * ms) (getAt? b (0 * ms - 3 * s))
  check (x = none)
  let (_, xs) ← at_ (0 * ms) b.iter
  check (xs = [3, 2, 1])) := by decide +kernel

/-- `with_three_initialized_items_tick_one_second`, `src/instruments/fundamentals/buckets.rs:241` -/
example : Passes (do
  let b ← at_ (0 * ms) (SecondsBuckets.initialized [1, 2, 3])
  let (b, x) ← at_ (0 * ms) (current b)
  check (x = 3)
  let (b, x) ← at_ (0 * ms) (getAt? b (0 * ms - 0 * s))
  check (x = some 3)
  let (b, x) ← at_ (0 * ms) (getAt? b (0 * ms - 1 * s))
  check (x = some 2)
  let (b, x) ← at_ (0 * ms) (getAt? b (0 * ms - 2 * s))
  check (x = some 1)
  let (b, x) ← at_ (0 * ms) (getAt? b (0 * ms - 3 * s))
  check (x = none)
  let (b, xs) ← at_ (0 * ms) b.iter
  check (xs = [3, 2, 1])
  let (b, x) ← at_ (1000 * ms) (current b)
  check (x = 0)
  let (b, x) ← at_ (1000 * ms) (getAt? b (1000 * ms - 0 * s))
  check (x = some 0)
  let (b, x) ← at_ (1000 * ms) (getAt? b (1000 * ms - 1 * s))
  check (x = some 3)
  let (b, x) ← at_ (1000 * ms) (getAt? b (1000 * ms - 2 * s))
  check (x = some 2)
  let (b, x) ← at_ (1000 * ms) (getAt? b (1000 * ms - 3 * s))
  check (x = none)
  let (b, xs) ← at_ (1000 * ms) b.iter
  check (xs = [0, 3, 2])
  let (b, x) ← at_ (2000 * ms) (current b)
  check (x = 0)
  let (b, x) ← at_ (2000 * ms) (getAt? b (2000 * ms - 0 * s))
  check (x = some 0)
  let (b, x) ← at_ (2000 * ms) (getAt? b (2000 * ms - 1 * s))
  check (x = some 0)
  let (b, x) ← at_ (2000 * ms) (getAt? b (2000 * ms - 2 * s))
  check (x = some 3)
  let (b, x) ← at_ (2000 * ms) (getAt? b (2000 * ms - 3 * s))
  check (x = none)
  let (b, xs) ← at_ (2000 * ms) b.iter
  check (xs = [0, 0, 3])
  let (b, x) ← at_ (3000 * ms) (current b)
  check (x = 0)
  let (b, x) ← at_ (3000 * ms) (getAt? b (3000 * ms - 0 * s))
  check (x = some 0)
  let (b, x) ← at_ (3000 * ms) (getAt? b (3000 * ms - 1 * s))
  check (x = some 0)
  let (b, x) ← at_ (3000 * ms) (getAt? b (3000 * ms - 2 * s))
  check (x = some 0)
  let (b, x) ← at_ (3000 * ms) (getAt? b (3000 * ms - 3 * s))
  check (x = none)
  let (_, xs) ← at_ (3000 * ms) b.iter
  check (xs = [0, 0, 0])) := by decide +kernel

/-- `with_three_uninitialized_items_tick_one_second`, `src/instruments/fundamentals/buckets.rs:330` -/
example : Passes (do
  let b ← at_ (0 * ms) (SecondsBuckets.new (T := Nat) 3)
  let (b, x) ← at_ (0 * ms) (current b)
  check (x = 0)
  let (b, x) ← at_ (0 * ms) (getAt? b (0 * ms - 0 * s))
  check (x = some 0)
  let (b, x) ← at_ (0 * ms) (getAt? b (0 * ms - 1 * s))
  check (x = some 0)
  let (b, x) ← at_ (0 * ms) (getAt? b (0 * ms - 2 * s))
  check (x = some 0)
  let (b, x) ← at_ (0 * ms) (getAt? b (0 * ms - 3 * s))
  check (x = none)
  let (b, xs) ← at_ (0 * ms) b.iter
  check (xs = [0, 0, 0])
  let b ← at_ (0 * ms) (setCurrent b 1)
  let (b, x) ← at_ (1000 * ms) (current b)
  check (x = 0)
  let (b, x) ← at_ (1000 * ms) (getAt? b (1000 * ms - 0 * s))
  check (x = some 0)
  let (b, x) ← at_ (1000 * ms) (getAt? b (1000 * ms - 1 * s))
  check (x = some 1)
  let (b, x) ← at_ (1000 * ms) (getAt? b (1000 * ms - 2 * s))
  check (x = some 0)
  let (b, x) ← at_ (1000 * ms) (getAt? b (1000 * ms - 3 * s))
  check (x = none)
  let (b, xs) ← at_ (1000 * ms) b.iter
  check (xs = [0, 1, 0])
  let b ← at_ (1000 * ms) (setCurrent b 2)
  let (b, x) ← at_ (2000 * ms) (current b)
  check (x = 0)
  let (b, x) ← at_ (2000 * ms) (getAt? b (2000 * ms - 0 * s))
  check (x = some 0)
  let (b, x) ← at_ (2000 * ms) (getAt? b (2000 * ms - 1 * s))
  check (x = some 2)
  let (b, x) ← at_ (2000 * ms) (getAt? b (2000 * ms - 2 * s))
  check (x = some 1)
  let (b, x) ← at_ (2000 * ms) (getAt? b (2000 * ms - 3 * s))
  check (x = none)
  let (b, xs) ← at_ (2000 * ms) b.iter
  check (xs = [0, 2, 1])
  let b ← at_ (2000 * ms) (setCurrent b 3)
  let (b, x) ← at_ (3000 * ms) (current b)
  check (x = 0)
  let (b, x) ← at_ (3000 * ms) (getAt? b (3000 * ms - 0 * s))
  check (x = some 0)
  let (b, x) ← at_ (3000 * ms) (getAt? b (3000 * ms - 1 * s))
  check (x = some 3)
  let (b, x) ← at_ (3000 * ms) (getAt? b (3000 * ms - 2 * s))
  check (x = some 2)
  let (b, x) ← at_ (3000 * ms) (getAt? b (3000 * ms - 3 * s))
  check (x = none)
  let (_, xs) ← at_ (3000 * ms) b.iter
  check (xs = [0, 3, 2])) := by decide +kernel

/-- `shift_by_tick`, `src/instruments/fundamentals/buckets.rs:421` -/
example : Passes (do
  let b ← at_ (0 * ms) (SecondsBuckets.new (T := Nat) 5)
  let b ← at_ (0 * ms) (setCurrent b 1)
  let (b, xs) ← at_ (0 * ms) b.iter
  check (xs = [1, 0, 0, 0, 0])
  let (b, xs) ← at_ (1000 * ms) b.iter
  check (xs = [0, 1, 0, 0, 0])
  let (b, xs) ← at_ (2000 * ms) b.iter
  check (xs = [0, 0, 1, 0, 0])
  let (b, xs) ← at_ (3000 * ms) b.iter
  check (xs = [0, 0, 0, 1, 0])
  let (b, xs) ← at_ (4000 * ms) b.iter
  check (xs = [0, 0, 0, 0, 1])
  let (_, xs) ← at_ (5000 * ms) b.iter
  check (xs = [0, 0, 0, 0, 0])) := by decide +kernel

/-- `shift_by_half_ticks`, `src/instruments/fundamentals/buckets.rs:458` -/
example : Passes (do
  let b ← at_ (0 * ms) (SecondsBuckets.new (T := Nat) 3)
  let b ← at_ (0 * ms) (setCurrent b 1)
  let (b, xs) ← at_ (0 * ms) b.iter
  check (xs = [1, 0, 0])
  let (b, xs) ← at_ (500 * ms) b.iter
  check (xs = [1, 0, 0])
  let (b, xs) ← at_ (1000 * ms) b.iter
  check (xs = [0, 1, 0])
  let (b, xs) ← at_ (1500 * ms) b.iter
  check (xs = [0, 1, 0])
  let (b, xs) ← at_ (2000 * ms) b.iter
  check (xs = [0, 0, 1])
  let (b, xs) ← at_ (2500 * ms) b.iter
  check (xs = [0, 0, 1])
  let (_, xs) ← at_ (3000 * ms) b.iter
  check (xs = [0, 0, 0])) := by decide +kernel

/-- `non_equidistant_advance`, `src/instruments/fundamentals/buckets.rs:479` -/
example : Passes (do
  let b ← at_ (0 * ms) (SecondsBuckets.new (T := Nat) 5)
  let b ← at_ (0 * ms) (setCurrent b 1)
  let (b, xs) ← at_ (0 * ms) b.iter
  check (xs = [1, 0, 0, 0, 0])
  let (b, xs) ← at_ (1500 * ms) b.iter
  check (xs = [0, 1, 0, 0, 0])
  let (b, xs) ← at_ (2000 * ms) b.iter
  check (xs = [0, 0, 1, 0, 0])
  let (b, xs) ← at_ (3500 * ms) b.iter
  check (xs = [0, 0, 0, 1, 0])
  let (_, xs) ← at_ (4000 * ms) b.iter
  check (xs = [0, 0, 0, 0, 1])) := by decide +kernel

/-- `shift_by_double_tick`, `src/instruments/fundamentals/buckets.rs:515` -/
example : Passes (do
  let b ← at_ (0 * ms) (SecondsBuckets.new (T := Nat) 5)
  let b ← at_ (0 * ms) (setCurrent b 1)
  let (b, xs) ← at_ (0 * ms) b.iter
  check (xs = [1, 0, 0, 0, 0])
  let (b, xs) ← at_ (2000 * ms) b.iter
  check (xs = [0, 0, 1, 0, 0])
  let (b, xs) ← at_ (4000 * ms) b.iter
  check (xs = [0, 0, 0, 0, 1])
  let (_, xs) ← at_ (5000 * ms) b.iter
  check (xs = [0, 0, 0, 0, 0])) := by decide +kernel

/-- `empty_by_over_tick_1`, `src/instruments/fundamentals/buckets.rs:544` -/
example : Passes (do
  let b ← at_ (0 * ms) (SecondsBuckets.new (T := Nat) 5)
  let b ← at_ (0 * ms) (setCurrent b 1)
  let (b, xs) ← at_ (0 * ms) b.iter
  check (xs = [1, 0, 0, 0, 0])
  let (_, xs) ← at_ (5000 * ms) b.iter
  check (xs = [0, 0, 0, 0, 0])) := by decide +kernel

/-- `empty_by_over_tick_2`, `src/instruments/fundamentals/buckets.rs:565` -/
example : Passes (do
  let b ← at_ (0 * ms) (SecondsBuckets.new (T := Nat) 5)
  let b ← at_ (0 * ms) (setCurrent b 1)
  let (b, xs) ← at_ (0 * ms) b.iter
  check (xs = [1, 0, 0, 0, 0])
  let (_, xs) ← at_ (6000 * ms) b.iter
  check (xs = [0, 0, 0, 0, 0])) := by decide +kernel

/-! ## Statistics

`BucketsStats::from_buckets` takes the current value of the gauge, if there is one. The tests leave it out, which the crate itself never
does, and the model has only the call with a value. With something in the buckets it does not matter. The first test, which
finds no statistics without a value, cannot be repeated. -/

/-- `none_empty_bucket_returns_some`, `src/instruments/gauge/tracking.rs:146` -/
example : Passes (do
  let b ← at_ (0 * ms) (SecondsBuckets.new 1)
  let b ← at_ (0 * ms) (b.modifyCurrent (Bucket.update · 1))
  let _ ← at_ (0 * ms) (BucketsStats.fromBuckets b (-77))
  return ()) := by decide +kernel

/-- `one_bucket_works_correctly_with_one_update`, `src/instruments/gauge/tracking.rs:155` -/
example : Passes (do
  let b ← at_ (0 * ms) (SecondsBuckets.new 1)
  let b ← at_ (0 * ms) (b.modifyCurrent (Bucket.update · 1))
  let (_, stats) ← at_ (0 * ms) (BucketsStats.fromBuckets b (-77))
  check (stats.peak = 1)
  check (stats.peakMin = 1)
  check (stats.peakAvg = .fin 1)
  check (stats.bottom = 1)
  check (stats.bottomMax = 1)
  check (stats.bottomAvg = .fin 1)
  check (stats.avg = .fin 1)) := by decide +kernel

/-- `one_bucket_works_correctly_with_two_different_updates_in_the_same_bucket`, `src/instruments/gauge/tracking.rs:171` -/
example : Passes (do
  let b ← at_ (0 * ms) (SecondsBuckets.new 1)
  let b ← at_ (0 * ms) (b.modifyCurrent (Bucket.update · 1))
  let b ← at_ (0 * ms) (b.modifyCurrent (Bucket.update · 2))
  let (_, stats) ← at_ (0 * ms) (BucketsStats.fromBuckets b (-77))
  check (stats.peak = 2)
  check (stats.peakMin = 2)
  check (stats.peakAvg = .fin 2)
  check (stats.bottom = 1)
  check (stats.bottomMax = 1)
  check (stats.bottomAvg = .fin 1)
  check (stats.avg = .fin (3 / 2))) := by decide +kernel

/-- `one_bucket_works_correctly_with_2_times_the_same_updates_and_one_bucket_shift`, `src/instruments/gauge/tracking.rs:188` -/
example : Passes (do
  let b ← at_ (0 * ms) (SecondsBuckets.new 1)
  let b ← at_ (0 * ms) (b.modifyCurrent (Bucket.update · 1))
  let b ← at_ (1000 * ms) (b.modifyCurrent (Bucket.update · 1))
  let (_, stats) ← at_ (1000 * ms) (BucketsStats.fromBuckets b (-77))
  check (stats.peak = 1)
  check (stats.peakMin = 1)
  check (stats.peakAvg = .fin 1)
  check (stats.bottom = 1)
  check (stats.bottomMax = 1)
  check (stats.bottomAvg = .fin 1)
  check (stats.avg = .fin 1)) := by decide +kernel

/-- `one_bucket_works_correctly_with_2_times_a_different_update_and_one_bucket_shift`, `src/instruments/gauge/tracking.rs:206` -/
example : Passes (do
  let b ← at_ (0 * ms) (SecondsBuckets.new 1)
  let b ← at_ (0 * ms) (b.modifyCurrent (Bucket.update · 1))
  let b ← at_ (1000 * ms) (b.modifyCurrent (Bucket.update · 2))
  let (_, stats) ← at_ (1000 * ms) (BucketsStats.fromBuckets b (-77))
  check (stats.peak = 2)
  check (stats.peakMin = 2)
  check (stats.peakAvg = .fin 2)
  check (stats.bottom = 2)
  check (stats.bottomMax = 2)
  check (stats.bottomAvg = .fin 2)
  check (stats.avg = .fin 2)) := by decide +kernel

/-- `two_buckets_works_correctly_with_2_times_the_same_updates_and_one_bucket_shift`, `src/instruments/gauge/tracking.rs:224` -/
example : Passes (do
  let b ← at_ (0 * ms) (SecondsBuckets.new 2)
  let b ← at_ (0 * ms) (b.modifyCurrent (Bucket.update · 1))
  let b ← at_ (1000 * ms) (b.modifyCurrent (Bucket.update · 1))
  let (_, stats) ← at_ (1000 * ms) (BucketsStats.fromBuckets b (-77))
  check (stats.peak = 1)
  check (stats.peakMin = 1)
  check (stats.peakAvg = .fin 1)
  check (stats.bottom = 1)
  check (stats.bottomMax = 1)
  check (stats.bottomAvg = .fin 1)
  check (stats.avg = .fin 1)) := by decide +kernel

/-- `two_buckets_works_correctly_with_different_updates_and_one_bucket_shift`, `src/instruments/gauge/tracking.rs:242` -/
example : Passes (do
  let b ← at_ (0 * ms) (SecondsBuckets.new 2)
  let b ← at_ (0 * ms) (b.modifyCurrent (Bucket.update · 1))
  let b ← at_ (1000 * ms) (b.modifyCurrent (Bucket.update · 2))
  let (_, stats) ← at_ (1000 * ms) (BucketsStats.fromBuckets b (-77))
  check (stats.peak = 2)
  check (stats.peakMin = 1)
  check (stats.peakAvg = .fin (3 / 2))
  check (stats.bottom = 1)
  check (stats.bottomMax = 2)
  check (stats.bottomAvg = .fin (3 / 2))
  check (stats.avg = .fin (3 / 2))) := by decide +kernel

/-- `two_buckets_works_correctly_2_different_updates_in_each_bucket_with_one_bucket_shift`, `src/instruments/gauge/tracking.rs:260` -/
example : Passes (do
  let b ← at_ (0 * ms) (SecondsBuckets.new 2)
  let b ← at_ (0 * ms) (b.modifyCurrent (Bucket.update · 2))
  let b ← at_ (0 * ms) (b.modifyCurrent (Bucket.update · 5))
  let b ← at_ (1000 * ms) (b.modifyCurrent (Bucket.update · 4))
  let b ← at_ (1000 * ms) (b.modifyCurrent (Bucket.update · 7))
  let (_, stats) ← at_ (1000 * ms) (BucketsStats.fromBuckets b (-77))
  check (stats.peak = 7)
  check (stats.peakMin = 5)
  check (stats.peakAvg = .fin 6)
  check (stats.bottom = 2)
  check (stats.bottomMax = 4)
  check (stats.bottomAvg = .fin 3)
  check (stats.avg = .fin (9 / 2))) := by decide +kernel

end Metrix.Tests
