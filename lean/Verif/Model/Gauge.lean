import Verif.Model.Observation
import Verif.Model.Util
import Verif.Model.Buckets

/-!
# Gauge: `src/instruments/gauge/mod.rs`, `src/instruments/gauge/tracking.rs`
-/

namespace Metrix

/-- `src/instruments/gauge/tracking.rs:5-9` (`Bucket`, with `Default`). -/
structure Bucket where
  sum : Int := 0
  count : Nat := 0
  min : Int := 0
  max : Int := 0
  deriving DecidableEq

instance : Inhabited Bucket := ⟨{}⟩

/-- `src/instruments/gauge/tracking.rs:12-21` (`Bucket::update`). -/
def Bucket.update (b : Bucket) (v : Int) : M Bucket := do
  let (mn, mx) := if b.count ≠ 0 then (Min.min b.min v, Max.max b.max v) else (v, v)
  let s ← arithI64 (b.sum + v)
  let c ← arithU64 (b.count + 1)
  return { sum := s, count := c, min := mn, max := mx }

/-- `src/instruments/gauge/tracking.rs:25-33` (`BucketsStats`). -/
structure BucketsStats where
  peak : Int
  peakMin : Int
  peakAvg : F64
  bottom : Int
  bottomMax : Int
  bottomAvg : F64
  avg : F64
  deriving DecidableEq

/-- The local variables of `src/instruments/gauge/tracking.rs:40-47`. -/
structure StatsAcc where
  peak : Int := i64Min
  peakMin : Int := i64Max
  bottom : Int := i64Max
  bottomMax : Int := i64Min
  sumBottom : Int := 0
  sumPeak : Int := 0
  totalSum : Int := 0
  totalCount : Nat := 0

/-- The loop body `src/instruments/gauge/tracking.rs:50-68`. -/
def StatsAcc.add (a : StatsAcc) (b : Bucket) : M StatsAcc :=
  if b.count ≠ 0 then do
    let totalSum ← arithI64 (a.totalSum + b.sum)
    let totalCount ← arithU64 (a.totalCount + b.count)
    let sumBottom ← arithI64 (a.sumBottom + b.min)
    let sumPeak ← arithI64 (a.sumPeak + b.max)
    return {
      peak := Max.max a.peak b.max
      peakMin := Min.min a.peakMin b.max
      bottom := Min.min a.bottom b.min
      bottomMax := Max.max a.bottomMax b.min
      sumBottom, sumPeak, totalSum, totalCount }
  else return a

/-- The loop `src/instruments/gauge/tracking.rs:49-69`. -/
def StatsAcc.addAll (a : StatsAcc) : List Bucket → M StatsAcc
  | [] => pure a
  | b :: bs => do (← a.add b).addAll bs

/-- `(x as f64) / (y as f64)` for integers. -/
def divF64 (x y : Int) : M F64 := do
  let e ← M.env
  return .fin (e.rnd (e.rnd x / e.rnd y))

/-- `x as f64` for integers. -/
def toF64 (x : Int) : M F64 := do
  let e ← M.env
  return .fin (e.rnd x)

/-- `src/instruments/gauge/tracking.rs:36-99` (`BucketsStats::from_buckets`). Called only with
`Some(current_value)`. Also returns the ticked buckets. -/
def BucketsStats.fromBuckets (b : SecondsBuckets Bucket) (current : Int) :
    M (SecondsBuckets Bucket × BucketsStats) := do
  let (b, bs) ← b.iter
  let a ← StatsAcc.addAll {} bs
  if a.totalCount ≠ 0 then
    let avg ← divF64 a.totalSum a.totalCount
    let bottomAvg ← divF64 a.sumBottom b.buckets.length
    let peakAvg ← divF64 a.sumPeak b.buckets.length
    return (b, {
      peak := a.peak, peakMin := a.peakMin, peakAvg
      bottom := a.bottom, bottomMax := a.bottomMax, bottomAvg, avg })
  else
    let f ← toF64 current
    return (b, {
      peak := current, peakMin := current, peakAvg := f
      bottom := current, bottomMax := current, bottomAvg := f, avg := f })

/-- `src/instruments/gauge/tracking.rs:101-126` (`add_to_snapshot`). -/
def BucketsStats.addToSnapshot (s : BucketsStats) (into : Snapshot) (pre : Option String) : Snapshot :=
  let p := match pre with
    | some p => p ++ "_"
    | none => ""
  into
    |>.push (p ++ "peak") (.int s.peak)
    |>.push (p ++ "peak_min") (.int s.peakMin)
    |>.push (p ++ "peak_avg") (.float s.peakAvg)
    |>.push (p ++ "bottom") (.int s.bottom)
    |>.push (p ++ "bottom_max") (.int s.bottomMax)
    |>.push (p ++ "bottom_avg") (.float s.bottomAvg)
    |>.push (p ++ "avg") (.float s.avg)

/-- `src/instruments/gauge/mod.rs:59-67` (`Gauge`). The `RefCell` around `tracking` is only borrowed within
one call, so `try_borrow_mut` always succeeds. -/
structure Gauge where
  name : String
  descr : Descr := {}
  value : Option Int := none
  tracking : Option (SecondsBuckets Bucket) := none
  groupValues : Bool := false
  displayTimeUnit : TimeUnit := .microseconds

namespace Gauge

/-- `src/instruments/gauge/mod.rs:167-171` (`set_tracking`). -/
def setTracking (g : Gauge) (forSeconds : Nat) : M Gauge :=
  if forSeconds ≠ 0 then do
    let b ← SecondsBuckets.new forSeconds
    return { g with tracking := some b }
  else return g

/-- `src/instruments/gauge/mod.rs:347-356` (`next_value`). -/
def nextValue (unit : TimeUnit) (current : Option Int) (observed : ObservedValue) : M (Option Int) :=
  match observed with
  | .changedBy d =>
    match current with
    | some c => do return some (← arithI64 (c + d))
    | none => return some d
  | .duration time u => do
    let v ← durationToDisplayValue time u unit
    return some (wrapI64 v)
  | x => return (x.convertToI64 <|> current)

/-- `src/instruments/gauge/mod.rs:317-322, 331-336`: the statements that record a value. -/
def track (t : Option (SecondsBuckets Bucket)) (v : Int) : M (Option (SecondsBuckets Bucket)) :=
  match t with
  | some b => do return some (← b.modifyCurrent fun x => x.update v)
  | none => return none

/-- `src/instruments/gauge/mod.rs:314-341` (`set`). -/
def set (g : Gauge) (observed : ObservedValue) : M Gauge :=
  match g.value with
  | some value => do
    match ← nextValue g.displayTimeUnit (some value) observed with
    | some next => do
      let t ← track g.tracking next
      return { g with value := some next, tracking := t }
    | none => return { g with value := some value }
  | none => do
    match ← nextValue g.displayTimeUnit none observed with
    | some next => do
      let t ← track g.tracking next
      return { g with value := some next, tracking := t }
    | none => return { g with value := none }

/-- `src/instruments/gauge/mod.rs:396-406` (`Updates for Gauge`). -/
def update (g : Gauge) (u : Update) : M (Gauge × Nat) :=
  match u with
  | .withValue v _ => do return (← g.set v, 1)
  | _ => return (g, 0)

/-- `src/instruments/gauge/mod.rs:358-378` (`put_values_into_snapshot`). -/
def putValues (g : Gauge) (into : Snapshot) : M (Gauge × Snapshot) :=
  match g.value with
  | none => return (g, into)
  | some value => do
    let (into, pre) :=
      if g.groupValues then (into.push "current" (.int value), none)
      else (into.push g.name (.int value), some g.name)
    match g.tracking with
    | none => return (g, into)
    | some b => do
      let (b, stats) ← BucketsStats.fromBuckets b value
      return ({ g with tracking := some b }, stats.addToSnapshot into pre)

/-- `src/instruments/gauge/mod.rs:383-394` (`PutsSnapshot for Gauge`). Also returns the gauge, whose
buckets are ticked. -/
def putSnapshot (g : Gauge) (into : Snapshot) (descriptive : Bool) : M (Gauge × Snapshot) := do
  let into := putPostfixedDescriptives g.descr g.name into descriptive
  if g.groupValues then
    let (g, newLevel) ← g.putValues []
    return (g, into.push g.name (.snapshot newLevel))
  else g.putValues into

end Gauge
end Metrix
