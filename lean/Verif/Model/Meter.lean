import Verif.Model.Observation
import Verif.Model.Util

/-!
# Meters: `src/instruments/fundamentals/metrics_meter.rs`, `src/instruments/meter.rs`,
`src/instruments/other_instruments/value_meter.rs`
-/

namespace Metrix

/-- `TICK_RATE_SECS` (`src/instruments/fundamentals/metrics_meter.rs:198`) in nanoseconds. -/
def tickNs : Nat := 5000000000

/-- `src/instruments/fundamentals/metrics_meter.rs:203-208` (`EWMA`). Only one thread uses it. -/
structure Ewma where
  uncounted : Nat
  alpha : Rat
  rate : Rat
  init : Bool
  deriving DecidableEq

namespace Ewma

/-- `src/instruments/fundamentals/metrics_meter.rs:233-240` (`new_by_alpha`). -/
def new (alpha : Rat) : Ewma := { uncounted := 0, alpha, rate := 0, init := false }

/-- `src/instruments/fundamentals/metrics_meter.rs:216-226` (`tick`). -/
def tick (rnd : Rat → Rat) (w : Ewma) : Ewma :=
  let iRate := rnd (rnd w.uncounted / tickNs)
  if w.init then
    { w with uncounted := 0, rate := rnd (w.rate + rnd (w.alpha * rnd (iRate - w.rate))) }
  else
    { w with uncounted := 0, init := true, rate := iRate }

/-- `src/instruments/fundamentals/metrics_meter.rs:228-230` (`update`). `fetch_add` wraps around in all
builds. -/
def update (w : Ewma) (n : Nat) : Ewma := { w with uncounted := (w.uncounted + n) % u64Bound }

/-- `src/instruments/fundamentals/metrics_meter.rs:212-214` (`rate`): per second. -/
def perSecond (rnd : Rat → Rat) (w : Ewma) : Rat := rnd (w.rate * nanosPerSec)

end Ewma

/-- `src/instruments/fundamentals/metrics_meter.rs:27-38` (`StdMeterData` and `StdMeter`). The mutex is only
used by one thread. -/
structure StdMeter where
  count : Int
  ewma1 : Ewma
  ewma5 : Ewma
  ewma15 : Ewma
  nextTick : Int
  start : Int
  deriving DecidableEq

namespace StdMeter

/-- `src/instruments/fundamentals/metrics_meter.rs:136-148` (`Default`). -/
def new : M StdMeter := do
  let e ← M.env
  let now ← M.now
  return {
    count := 0
    ewma1 := Ewma.new e.alpha1, ewma5 := Ewma.new e.alpha5, ewma15 := Ewma.new e.alpha15
    nextTick := now + tickNs
    start := now }

/-- The loop body `src/instruments/fundamentals/metrics_meter.rs:128-131`. `next_tick` is at most 5 seconds
after `now`, its overflow is not modelled. -/
def tickOnce (rnd : Rat → Rat) (s : StdMeter) : StdMeter :=
  { s with
    ewma1 := s.ewma1.tick rnd, ewma5 := s.ewma5.tick rnd, ewma15 := s.ewma15.tick rnd
    nextTick := s.nextTick + tickNs }

/-- The loop `src/instruments/fundamentals/metrics_meter.rs:127-132`. -/
def catchUp (rnd : Rat → Rat) (now : Int) (s : StdMeter) : StdMeter :=
  if s.nextTick ≤ now then catchUp rnd now (s.tickOnce rnd) else s
termination_by (now + 1 - s.nextTick).toNat
decreasing_by simp only [tickOnce, tickNs]; omega

/-- `src/instruments/fundamentals/metrics_meter.rs:124-133` (`tick_inner`), also `tick` (78-81). -/
def tick (s : StdMeter) : M StdMeter := do
  let e ← M.env
  let now ← M.now
  return s.catchUp e.rnd now

/-- `src/instruments/fundamentals/metrics_meter.rs:67-76` (`mark`). `n as usize` wraps negative numbers. -/
def mark (s : StdMeter) (n : Int) : M StdMeter := do
  let s ← s.tick
  let c ← arithI64 (s.count + n)
  return { s with
    count := c
    ewma1 := s.ewma1.update (wrapU64 n)
    ewma5 := s.ewma5.update (wrapU64 n)
    ewma15 := s.ewma15.update (wrapU64 n) }

/-- `src/instruments/fundamentals/metrics_meter.rs:114-122` (`mean_inner`). -/
def mean (s : StdMeter) : M F64 :=
  if s.count = 0 then return .fin 0
  else do
    let e ← M.env
    let now ← M.now
    let dur := sinceNs now s.start
    let secs ← arithU64 (dur / nanosPerSec * nanosPerSec)
    let nanos ← arithU64 (secs + dur % nanosPerSec)
    if nanos = 0 then return (if 0 < s.count then .posInf else .negInf)
    else return .fin (e.rnd (e.rnd (e.rnd s.count / e.rnd nanos) * nanosPerSec))

/-- `src/instruments/fundamentals/metrics_meter.rs:20-24` (`MeterSnapshot`). -/
structure Snap where
  count : Int
  rate1 : Rat
  rate5 : Rat
  rate15 : Rat
  mean : F64

/-- `src/instruments/fundamentals/metrics_meter.rs:56-65` (`snapshot`). -/
def snapshot (s : StdMeter) : M (StdMeter × Snap) := do
  let e ← M.env
  let s ← s.tick
  let mean ← s.mean
  return (s, {
    count := s.count
    rate1 := s.ewma1.perSecond e.rnd
    rate5 := s.ewma5.perSecond e.rnd
    rate15 := s.ewma15.perSecond e.rnd
    mean })

end StdMeter

/-- `src/instruments/meter.rs:19-29` (`Meter`), and the same fields of `ValueMeter`
(`src/instruments/other_instruments/value_meter.rs:14-25`). The default of `lower_cutoff` is the literal
`0.001`; the rational 1/1000 stands for the `f64` nearest to it. -/
structure Meter where
  name : String
  descr : Descr := {}
  lastTick : Int
  inner : StdMeter
  lowerCutoff : F64 := .fin (1 / 1000)
  oneMinute : Bool := true
  fiveMinutes : Bool := false
  fifteenMinutes : Bool := false
  deriving DecidableEq

/-- `src/instruments/meter.rs:280-288` (`MeterSnapshot`), with the rates of `MeterRate` (338-341), whose
`share` is always `None`. -/
structure MeterSnapshot where
  name : String
  descr : Descr
  count : Nat
  oneMinute : Option F64
  fiveMinutes : Option F64
  fifteenMinutes : Option F64

/-- `src/instruments/meter.rs:290-326` (`MeterSnapshot::put_snapshot`), with `MeterRate::put_snapshot`
(343-350). -/
def MeterSnapshot.putSnapshot (m : MeterSnapshot) (into : Snapshot) (descriptive : Bool) : Snapshot :=
  let into := putPostfixedDescriptives m.descr m.name into descriptive
  let level : Snapshot := [("count", .uint m.count)]
  let put (level : Snapshot) (name : String) (r : Option F64) : Snapshot :=
    match r with
    | some rate => level.push name (.snapshot [("rate", .float rate)])
    | none => level
  let level := put level "one_minute" m.oneMinute
  let level := put level "five_minutes" m.fiveMinutes
  let level := put level "fifteen_minutes" m.fifteenMinutes
  into.push m.name (.snapshot level)

namespace Meter

/-- `src/instruments/meter.rs:32-44` (`new`). -/
def new (name : String) : M Meter := do
  let lastTick ← M.now
  let inner ← StdMeter.new
  return { name, lastTick, inner }

/-- `src/instruments/meter.rs:185-188` and `251-254`;
`src/instruments/other_instruments/value_meter.rs:190-193`. -/
def tickIfDue (m : Meter) : M Meter := do
  let now ← M.now
  if sinceNs now m.lastTick ≥ tickNs then
    let inner ← m.inner.tick
    let t ← M.now
    return { m with inner, lastTick := t }
  else return m

/-- `if rate < self.lower_cutoff { 0.0 } else { rate }` (`src/instruments/meter.rs:199-203`). -/
def cut (m : Meter) (rate : Rat) : F64 :=
  if F64.lt (.fin rate) m.lowerCutoff then .fin 0 else .fin rate

/-- `src/instruments/meter.rs:184-236` (`get_snapshot`);
`src/instruments/other_instruments/value_meter.rs:189-241` is the same. `count as u64` wraps. -/
def getSnapshot (m : Meter) : M (Meter × MeterSnapshot) := do
  let m ← m.tickIfDue
  let (inner, s) ← m.inner.snapshot
  return ({ m with inner }, {
    name := m.name
    descr := m.descr
    count := wrapU64 s.count
    oneMinute := if m.oneMinute then some (m.cut s.rate1) else none
    fiveMinutes := if m.fiveMinutes then some (m.cut s.rate5) else none
    fifteenMinutes := if m.fifteenMinutes then some (m.cut s.rate15) else none })

/-- `src/instruments/meter.rs:241-247` (`PutsSnapshot for Meter`);
`src/instruments/other_instruments/value_meter.rs:246-252`. -/
def putSnapshot (m : Meter) (into : Snapshot) (descriptive : Bool) : M (Meter × Snapshot) := do
  let (m, s) ← m.getSnapshot
  return (m, s.putSnapshot into descriptive)

/-- `src/instruments/meter.rs:249-268` (`Updates for Meter`). -/
def update (m : Meter) (u : Update) : M (Meter × Nat) := do
  let m ← m.tickIfDue
  match u with
  | .withValue _ _ => do return ({ m with inner := ← m.inner.mark 1 }, 1)
  | .observations n _ =>
    if (n : Int) ≤ i64Max ∧ n ≠ 0 then do return ({ m with inner := ← m.inner.mark n }, 1)
    else return (m, 1)
  | .observation _ => do return ({ m with inner := ← m.inner.mark 1 }, 1)

end Meter

/-- `src/instruments/other_instruments/value_meter.rs:14-25` (`ValueMeter`). -/
structure ValueMeter where
  meter : Meter
  displayTimeUnit : TimeUnit := .microseconds
  deriving DecidableEq

namespace ValueMeter

/-- `src/instruments/other_instruments/value_meter.rs:28-41` (`new`). -/
def new (name : String) : M ValueMeter := do return { meter := ← Meter.new name }

/-- `self.inner_meter.mark(v)` (`src/instruments/other_instruments/value_meter.rs:261, 267`). -/
def mark (m : ValueMeter) (v : Int) : M ValueMeter := do
  return { m with meter := { m.meter with inner := ← m.meter.inner.mark v } }

/-- `src/instruments/other_instruments/value_meter.rs:254-277` (`Updates for ValueMeter`). -/
def update (m : ValueMeter) (u : Update) : M (ValueMeter × Nat) :=
  match u with
  | .withValue (.duration time unit) _ => do
    let v ← durationToDisplayValue time unit m.displayTimeUnit
    return (← m.mark (wrapI64 v), 1)
  | .withValue other _ =>
    match other.convertToI64 with
    | some v => do return (← m.mark v, 1)
    | none => return (m, 0)
  | _ => return (m, 0)

/-- `src/instruments/other_instruments/value_meter.rs:246-252` (`PutsSnapshot for ValueMeter`). -/
def putSnapshot (m : ValueMeter) (into : Snapshot) (descriptive : Bool) :
    M (ValueMeter × Snapshot) := do
  let (meter, into) ← m.meter.putSnapshot into descriptive
  return ({ m with meter }, into)

end ValueMeter
end Metrix
