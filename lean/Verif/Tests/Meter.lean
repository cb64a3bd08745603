import Verif.Tests.Basic
import Verif.Model.Meter

/-! # Tests of the meter inside of meters: `src/instruments/fundamentals/metrics_meter.rs:150-193, 252-436` -/

namespace Metrix.Tests

/-- `zero`, `src/instruments/fundamentals/metrics_meter.rs:155` -/
example : Passes (do
  let m ← at_ 0 StdMeter.new
  let (_, s) ← at_ 1 m.snapshot
  check (s.count = 0)) := by decide +kernel

/-- `non_zero`, `src/instruments/fundamentals/metrics_meter.rs:163` -/
example : Passes (do
  let m ← at_ 0 StdMeter.new
  let m ← at_ 1 (m.mark 3)
  let (_, s) ← at_ 2 m.snapshot
  check (s.count = 3)) := by decide +kernel

/-- `snapshot`, `src/instruments/fundamentals/metrics_meter.rs:173` -/
example : Passes (do
  let m ← at_ 0 StdMeter.new
  let m ← at_ 1 (m.mark 1)
  let m ← at_ 2 (m.mark 1)
  let (m, s) ← at_ 3 m.snapshot
  let m ← at_ 4 (m.mark 1)
  check (s.count = 2)
  let (_, s) ← at_ 5 m.snapshot
  check (s.count = 3)) := by decide +kernel

/-- `decay`, `src/instruments/fundamentals/metrics_meter.rs:188` -/
example : Passes (do
  let m ← at_ 0 StdMeter.new
  let _ ← at_ 1 m.tick) := by decide +kernel

/-- `elapse_minute`, `src/instruments/fundamentals/metrics_meter.rs:257` -/
def elapseMinute (w : Ewma) : Ewma := (List.range 12).foldl (fun w _ => w.tick id) w

/-- The assertions on `within` (`src/instruments/fundamentals/metrics_meter.rs:264`) one after the other. -/
def Within : Ewma → List Rat → Prop
  | _, [] => True
  | w, x :: xs =>
    x - 1 / 10000 < (elapseMinute w).perSecond id ∧ (elapseMinute w).perSecond id < x + 1 / 10000 ∧ Within (elapseMinute w) xs

instance decideWithin : (w : Ewma) → (xs : List Rat) → Decidable (Within w xs)
  | _, [] => .isTrue trivial
  | w, _ :: xs => have := decideWithin (elapseMinute w) xs; by unfold Within; exact inferInstance

/-- `ewma1`, `src/instruments/fundamentals/metrics_meter.rs:271` -/
example : let w := ((Ewma.new (showing 0).alpha1).update 3).tick id
    w.perSecond id = 6 / 10 ∧ Within w [
      22072766470286553 / 100000000000000000,
      8120116994196772 / 100000000000000000,
      29872241020718428 / 1000000000000000000,
      1098938333324054 / 100000000000000000,
      4042768199451294 / 1000000000000000000,
      14872513059998212 / 10000000000000000000,
      5471291793327122 / 10000000000000000000,
      20127757674150815 / 100000000000000000000,
      7404588245200814 / 100000000000000000000,
      27239957857491083 / 1000000000000000000000,
      10021020474147462 / 1000000000000000000000,
      36865274119969525 / 10000000000000000000000,
      13561976441886433 / 10000000000000000000000,
      4989172314621449 / 10000000000000000000000,
      18354139230109722 / 100000000000000000000000] := by decide +kernel

/-- `ewma5`, `src/instruments/fundamentals/metrics_meter.rs:327` -/
example : let w := ((Ewma.new (showing 0).alpha5).update 3).tick id
    w.perSecond id = 6 / 10 ∧ Within w [
      49123845184678905 / 100000000000000000,
      4021920276213837 / 10000000000000000,
      32928698165641596 / 100000000000000000,
      269597378470333 / 1000000000000000,
      2207276647028654 / 10000000000000000,
      18071652714732128 / 100000000000000000,
      14795817836496392 / 100000000000000000,
      12113791079679326 / 100000000000000000,
      9917933293295193 / 100000000000000000,
      8120116994196763 / 100000000000000000,
      6648189501740036 / 100000000000000000,
      5443077197364752 / 100000000000000000,
      4456414692860035 / 100000000000000000,
      3648603757513079 / 100000000000000000,
      298722410207183831020718428 / 10000000000000000000000000000] := by decide +kernel

/-- `ewma15`, `src/instruments/fundamentals/metrics_meter.rs:382` -/
example : let w := ((Ewma.new (showing 0).alpha15).update 3).tick id
    w.perSecond id = 6 / 10 ∧ Within w [
      5613041910189706 / 10000000000000000,
      5251039914257684 / 10000000000000000,
      4912384518467888184678905 / 10000000000000000000000000,
      459557003018789 / 1000000000000000,
      4299187863442732 / 10000000000000000,
      4021920276213831 / 10000000000000000,
      37625345116383313 / 100000000000000000,
      3519877317060185 / 10000000000000000,
      3292869816564153165641596 / 10000000000000000000000000,
      3080502714195546 / 10000000000000000,
      2881831806538789 / 10000000000000000,
      26959737847033216 / 100000000000000000,
      2522102307052083 / 10000000000000000,
      23594443252115815 / 100000000000000000,
      2207276647028646247028654470286553 / 10000000000000000000000000000000000] := by decide +kernel

end Metrix.Tests
