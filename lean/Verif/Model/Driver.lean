import Verif.Model.Attached
import Verif.Model.Gauge
import Verif.Model.Histogram
import Verif.Model.Meter
import Verif.Model.Switches

/-!
# The driver: `src/driver.rs`

The handles (`TelemetryDriver`) are the senders of an unbounded channel, see `Verif.Model.Channel`: each handle is in the
hands of one thread, whose program are the messages of its calls. Dropping a handle drops its part of the `DropGuard` and
its sender (`src/driver.rs:152-156`); this is one step of the thread here. `is_running` is false as soon as the last guard
is dropped; it is read and written with `Ordering::Relaxed`, so the reader may see an older value (`Loop.blind`).

`thread::sleep` does nothing here; an iteration tells when it sleeps and for how long (`Nap`). Logging is not modelled.
-/

namespace Metrix

/-! ## The driver's own instruments -/

/-- `src/driver.rs:631-646` (`DriverInstruments`). `DriverMetrics` (597-599) contains nothing else. -/
structure DriverInstruments where
  collectionsPerSecond : Meter
  collectionTimes : Histogram
  processedPerSecond : Meter
  processedPerCollection : Histogram
  droppedPerSecond : Meter
  droppedPerCollection : Histogram
  enqueued : Gauge
  updatedPerSecond : Meter
  snapshotsPerSecond : Meter
  snapshotTimes : Histogram
  droppedAlarm : StaircaseTimer
  inactivityAlarm : NonOccurrenceIndicator
  ratioHisto : Histogram
  ratio : Gauge

/-- `d.as_secs_f64()` for a duration of `d` nanoseconds. -/
def asSecsF64 (d : Nat) : M Rat := do
  let e ← M.env
  return e.rnd (e.rnd (d / nanosPerSec : Nat) + e.rnd (e.rnd (d % nanosPerSec : Nat) / nanosPerSec))

/-- `v as u64` of a finite float: towards zero, saturating. -/
def truncToU64 (q : Rat) : Nat := min (u64Bound - 1) q.floor.toNat

namespace DriverInstruments

/-- `src/driver.rs:648-687` (`Default for DriverInstruments`). -/
def new : M DriverInstruments := do
  let collectionsPerSecond ← Meter.new "collections_per_second"
  let collectionTimes ← Histogram.new "collection_times_us"
  let processedPerSecond ← Meter.new "observations_processed_per_second"
  let processedPerCollection ← Histogram.new "observations_processed_per_collection"
  let droppedPerSecond ← Meter.new "observations_dropped_per_second"
  let droppedPerCollection ← Histogram.new "observations_dropped_per_collection"
  let enqueued ← ({ name := "observations_enqueued" } : Gauge).setTracking 60
  let updatedPerSecond ← Meter.new "instruments_updated_per_second"
  let snapshotsPerSecond ← Meter.new "snapshots_per_second"
  let snapshotTimes ← Histogram.new "snapshots_times_us"
  let inactivityAlarm ← NonOccurrenceIndicator.new "inactivity_alarm"
  let ratioHisto ← Histogram.new "iteration_update_ratio_per_mille_histo"
  let ratio ← ({ name := "iteration_update_ratio_per_mille" } : Gauge).setTracking 60
  return {
    collectionsPerSecond, collectionTimes, processedPerSecond, processedPerCollection, droppedPerSecond
    droppedPerCollection, enqueued := { enqueued with groupValues := true }, updatedPerSecond, snapshotsPerSecond
    snapshotTimes, droppedAlarm := { name := "dropped_observations_alarm" }, inactivityAlarm, ratioHisto
    ratio := { ratio with groupValues := true } }

/-- `src/driver.rs:696-702`: the first two updates of `update_post_collection`. -/
def notePass (i : DriverInstruments) (now started : Int) : M DriverInstruments := do
  let (m, _) ← i.collectionsPerSecond.update (.observation now)
  let time ← ObservedValue.ofDuration (sinceNs now started)
  let (h, _) ← i.collectionTimes.update (.withValue time now)
  return { i with collectionsPerSecond := m, collectionTimes := h }

/-- `src/driver.rs:703-708`. -/
def noteProcessed (i : DriverInstruments) (now : Int) (n : Nat) : M DriverInstruments :=
  if n > 0 then do
    let (m, _) ← i.processedPerSecond.update (.observations n now)
    let (h, _) ← i.processedPerCollection.update (.withValue (.unsignedInteger n) now)
    return { i with processedPerSecond := m, processedPerCollection := h }
  else return i

/-- `src/driver.rs:709-713`. -/
def noteEnqueued (i : DriverInstruments) (now : Int) (n : Nat) : M DriverInstruments := do
  let (g, _) ← i.enqueued.update (.withValue (.unsignedInteger n) now)
  return { i with enqueued := g }

/-- `src/driver.rs:714-721`. -/
def noteDropped (i : DriverInstruments) (now : Int) (n : Nat) : M DriverInstruments :=
  if n > 0 then do
    let (m, _) ← i.droppedPerSecond.update (.observations n now)
    let (h, _) ← i.droppedPerCollection.update (.withValue (.unsignedInteger n) now)
    let (t, _) ← i.droppedAlarm.update (.observation now)
    return { i with droppedPerSecond := m, droppedPerCollection := h, droppedAlarm := t }
  else return i

/-- `src/driver.rs:722-728`. -/
def noteUpdated (i : DriverInstruments) (now : Int) (n : Nat) : M DriverInstruments :=
  if n > 0 then do
    let (m, _) ← i.updatedPerSecond.update (.observations n now)
    return { i with updatedPerSecond := m }
  else return i

/-- `src/driver.rs:729`. -/
def noteActivity (i : DriverInstruments) (now : Int) : M DriverInstruments := do
  let (x, _) ← i.inactivityAlarm.update (.observation now)
  return { i with inactivityAlarm := x }

/-- `src/driver.rs:690-730` (`update_post_collection`). -/
def updatePostCollection (i : DriverInstruments) (o : Outcome) (started : Int) : M DriverInstruments := do
  let now ← M.now
  let i ← i.notePass now started
  let i ← i.noteProcessed now o.processed
  let i ← i.noteEnqueued now o.observationsEnqueued
  let i ← i.noteDropped now o.dropped
  let i ← i.noteUpdated now o.instrumentsUpdated
  i.noteActivity now

/-- `src/driver.rs:732-740` (`update_post_snapshot`). -/
def updatePostSnapshot (i : DriverInstruments) (started : Int) : M DriverInstruments := do
  let now ← M.now
  let (m, _) ← i.snapshotsPerSecond.update (.observation now)
  let time ← ObservedValue.ofDuration (sinceNs now started)
  let (h, _) ← i.snapshotTimes.update (.withValue time now)
  return { i with snapshotsPerSecond := m, snapshotTimes := h }

/-- `src/driver.rs:618-628` (`update_run_ratio`). -/
def updateRunRatio (i : DriverInstruments) (ratio : Rat) : M DriverInstruments := do
  let e ← M.env
  let now ← M.now
  let perMille := truncToU64 (e.rnd (ratio * 1000))
  let (h, _) ← i.ratioHisto.update (.withValue (.unsignedInteger perMille) now)
  let (g, _) ← i.ratio.update (.withValue (.unsignedInteger perMille) now)
  return { i with ratioHisto := h, ratio := g }

/-- `src/driver.rs:742-775` (`put_snapshot`). Also returns the instruments: meters and gauges tick. -/
def putSnapshot (i : DriverInstruments) (into : Snapshot) (d : Bool) : M (DriverInstruments × Snapshot) := do
  let (collectionsPerSecond, c) ← i.collectionsPerSecond.putSnapshot [] d
  let c ← i.collectionTimes.putSnapshot c d
  let (processedPerSecond, c) ← i.processedPerSecond.putSnapshot c d
  let c ← i.processedPerCollection.putSnapshot c d
  let (droppedPerSecond, c) ← i.droppedPerSecond.putSnapshot c d
  let c ← i.droppedPerCollection.putSnapshot c d
  let (enqueued, c) ← i.enqueued.putSnapshot c d
  let (updatedPerSecond, c) ← i.updatedPerSecond.putSnapshot c d
  let (snapshotsPerSecond, c) ← i.snapshotsPerSecond.putSnapshot c d
  let c ← i.snapshotTimes.putSnapshot c d
  let c ← i.droppedAlarm.putSnapshot c d
  let c ← i.inactivityAlarm.putSnapshot c d
  let (ratio, c) ← i.ratio.putSnapshot c d
  let c ← i.ratioHisto.putSnapshot c d
  return ({ i with collectionsPerSecond, processedPerSecond, droppedPerSecond, enqueued, updatedPerSecond
                   snapshotsPerSecond, ratio },
    into.push "_metrix" (.snapshot c))

end DriverInstruments

/-! ## The loop -/

/-- `src/driver.rs:350-358` (`DriverMessage`). `GetSnapshotSync` and `GetSnapshotAsync` differ only in the kind of channel
for the answer. They carry an empty snapshot (`src/driver.rs:241, 253`). `id` tells which call it belongs to; it stands for
the back channel. -/
inductive DriverMsg (σ L : Type)
  | addProcessor (n : Node σ L)
  | addSnapshooter (s : Snapshooter σ L)
  | getSnapshot (id : Nat) (descriptive : Bool)
  | setStrategy (s : Strategy)
  | pause
  | resume

/-- A line in the log, "… observations have been dropped." (`src/driver.rs:587-591`, `log_outcome`): written when the clock had been read
`readings` times, with the number `dropped`. Without the feature `log` (593-595) nothing is written. -/
structure Warning where
  readings : Nat
  dropped : Nat
deriving DecidableEq

/-- The local variables of `telemetry_loop` (`src/driver.rs:360-376`) except for the receiver. `warned` is what was written to the log by
`log_outcome` so far; nothing depends on it. -/
structure LoopState (σ L : Type) where
  name : Option String := none
  descr : Descr := {}
  metrics : Option DriverInstruments
  lastOutcomeLogged : Int
  droppedSinceLastLogged : Nat := 0
  processors : List (Node σ L) := []
  snapshooters : List (Snapshooter σ L) := []
  strategy : Strategy
  paused : Bool := false
  warned : List Warning := []

/-- The thread of a driver between two iterations. `is_running` is read with `Ordering::Relaxed` (`src/driver.rs:378`), so that
the thread may see an older value. `blind` tells for the next iterations whether it does; after the end of the list it sees the
newest value. Once it has seen that the driver is to stop, there are no further iterations. -/
structure Loop (σ L : Type) where
  state : LoopState σ L
  receiver : Receiver (DriverMsg σ L)
  blind : List Bool := []

variable {σ L : Type}

/-- `src/driver.rs:175-216` (`new`) and `src/driver.rs:367-376`: up to the first iteration. -/
def LoopState.new (name : Option String) (descr : Descr) (strategy : Strategy) (withMetrics : Bool) :
    M (LoopState σ L) := do
  let metrics ← if withMetrics then some <$> DriverInstruments.new else pure none
  let now ← M.now
  let lastOutcomeLogged ← subDur now (60 * nanosPerSec)
  return { name, descr, metrics, lastOutcomeLogged, strategy }

/-- What the beginning of an iteration (`src/driver.rs:378-385, 425-432`) leads to: the end of the loop, or the rest of
the iteration, with a message or without. -/
inductive Polled (σ L : Type)
  | stop
  | go (m : Option (DriverMsg σ L))

/-- `src/driver.rs:378-385, 425-432`: look at `is_running`, then receive. `is_running` becomes false when the last handle is
dropped (162-166). If `blind`, an older value is seen. -/
def pollDriver (blind : Bool) (r : Receiver (DriverMsg σ L)) : Receiver (DriverMsg σ L) × Polled σ L :=
  let r := r.wait
  if r.chan.abandoned && !blind then (r, .stop)
  else
    match r.tryRecv with
    | (r, .ok m) => (r, .go (some m))
    | (r, .empty) => (r, .go none)
    | (r, .disconnected) => (r, .stop)

/-- `Duration::from_millis(1)` in nanoseconds. -/
def nanosPerMilli : Nat := 1000000

/-- A call of `thread::sleep`: when the clock has been read `readings` times, for `length` nanoseconds. -/
structure Nap where
  readings : Nat
  length : Nat
deriving DecidableEq

namespace LoopState
variable [DecidableEq L] [Custom σ L] [CustomProcessor σ]

omit [DecidableEq L] in
/-- `src/driver.rs:536-558` (`add_snapshot_values`). -/
def addSnapshotValues (l : LoopState σ L) (into : Snapshot) (d : Bool) (started : Int) :
    M (LoopState σ L × Snapshot) := do
  let into := putDefaultDescriptives l.descr into d
  let (processors, into) ← putNodes d l.processors into
  let (snapshooters, into) ← putSnapshooters d l.snapshooters into
  match l.metrics with
  | some i =>
    let i ← i.updatePostSnapshot started
    let (i, into) ← i.putSnapshot into d
    return ({ l with processors, snapshooters, metrics := some i }, into)
  | none => return ({ l with processors, snapshooters }, into)

omit [DecidableEq L] in
/-- `src/driver.rs:500-534` (`put_values_into_snapshot`), into an empty snapshot. -/
def makeSnapshot (l : LoopState σ L) (d : Bool) : M (LoopState σ L × Snapshot) := do
  let started ← M.now
  match l.name with
  | some name =>
    let (l, level) ← l.addSnapshotValues [] d started
    return (l, [(name, .snapshot level)])
  | none => l.addSnapshotValues [] d started

omit [DecidableEq L] in
/-- `src/driver.rs:386-423`: handle a message. Also returns the answer that is sent. -/
def handle (l : LoopState σ L) : DriverMsg σ L → M (LoopState σ L × Option Snapshot)
  | .addProcessor n => return ({ l with processors := l.processors ++ [n] }, none)
  | .addSnapshooter s => return ({ l with snapshooters := l.snapshooters ++ [s] }, none)
  | .getSnapshot _ d => do
    let (l, s) ← l.makeSnapshot d
    return (l, some s)
  | .setStrategy s => return ({ l with strategy := s }, none)
  | .pause => return ({ l with paused := true }, none)
  | .resume => return ({ l with paused := false }, none)

omit [DecidableEq L] [Custom σ L] [CustomProcessor σ] in
/-- `src/driver.rs:443-449`. The line is written between the two readings of the clock. -/
def logDropped (l : LoopState σ L) (dropped : Nat) : M (LoopState σ L) := do
  let l := { l with droppedSinceLastLogged := l.droppedSinceLastLogged + dropped }
  if l.droppedSinceLastLogged > 0 then
    let now ← M.now
    if sinceNs now l.lastOutcomeLogged > 5 * nanosPerSec then
      let readings ← M.readings
      let now ← M.now
      return { l with lastOutcomeLogged := now, droppedSinceLastLogged := 0,
                      warned := l.warned ++ [{ readings, dropped := l.droppedSinceLastLogged }] }
    else return l
  else return l

omit [DecidableEq L] [Custom σ L] [CustomProcessor σ] in
/-- `src/driver.rs:451-453`. -/
def noteRun (l : LoopState σ L) (o : Outcome) (started : Int) : M (LoopState σ L) :=
  match l.metrics with
  | some i => do
    let i ← i.updatePostCollection o started
    return { l with metrics := some i }
  | none => return l

omit [DecidableEq L] [Custom σ L] [CustomProcessor σ] in
/-- `src/driver.rs:484-498` (`report_elapsed_stats`). -/
def reportElapsed (l : LoopState σ L) (iterationStarted : Int) (runTime : Nat) : M (LoopState σ L) :=
  match l.metrics with
  | some i => do
    let now ← M.now
    let iterationTime ← asSecsF64 (sinceNs now iterationStarted)
    let runTime ← asSecsF64 runTime
    if iterationTime > 0 then
      let e ← M.env
      let i ← i.updateRunRatio (e.rnd (runTime / iterationTime))
      return { l with metrics := some i }
    else return l
  | none => return l

/-- `src/driver.rs:434-464`: the rest of an iteration. Also returns the outcome, if there was a run, and the sleep, if there
was one. That nothing was dropped (461) is known from 455. -/
def work (l : LoopState σ L) (iterationStarted : Int) : M (LoopState σ L × Option Outcome × Option Nap) :=
  if l.paused then do
    let readings ← M.readings
    return (l, none, some { readings, length := 50 * nanosPerMilli })
  else do
    let runStarted ← M.now
    let (processors, o) ← processNodes 1000 l.strategy l.processors
    let now ← M.now
    let runTime := sinceNs now runStarted
    let l ← { l with processors }.logDropped o.dropped
    let l ← l.noteRun o runStarted
    if o.dropped > 0 || o.processed > 100 then return (l, some o, none)
    else do
      let finished ← M.now
      let elapsed := sinceNs finished runStarted
      let readings ← M.readings
      let rest := if elapsed < 10 * nanosPerMilli then some { readings, length := 10 * nanosPerMilli - elapsed } else none
      let l ← l.reportElapsed iterationStarted runTime
      return (l, some o, rest)

end LoopState

/-- `src/driver.rs:382-424`: the first part of an iteration, after the channel was looked at. Also returns
`iteration_started` and the answer that is sent. -/
def LoopState.begin [Custom σ L] [CustomProcessor σ] (l : LoopState σ L) (m : Option (DriverMsg σ L)) :
    M (LoopState σ L × Int × Option Snapshot) := do
  let started ← M.now
  match m with
  | some m =>
    let (l, answer) ← l.handle m
    return (l, started, answer)
  | none => return (l, started, none)

/-- What an iteration did: which message it received, the answer it sent, the outcome of the run, and its sleep. -/
structure Iteration (σ L : Type) where
  message : Option (DriverMsg σ L) := none
  answer : Option Snapshot := none
  outcome : Option Outcome := none
  rest : Option Nap := none

/-- The thread of a driver: in its loop, or ended. Afterwards only the channel is left, without a receiver. -/
inductive DriverThread (σ L : Type)
  | running (l : Loop σ L)
  | ended (c : Channel (DriverMsg σ L))

variable [DecidableEq L] [Custom σ L] [CustomProcessor σ]

/-- `src/driver.rs:377-465`: an iteration of the loop. Also returns what happened, if the loop did not end, and the number of
clock readings afterwards.

The loop ends if it sees that there are no handles any more (378-380, 426-431). It also ends if the thread panics, which may happen before
or after an answer was sent. Then the receiver is dropped, and with it all messages that are still in the queue and the
one that is being handled.

After the end of the thread nothing happens here. -/
def DriverThread.iterate (t : DriverThread σ L) (e : Env) (k : Nat) : DriverThread σ L × Option (Iteration σ L) × Nat :=
  match t with
  | .ended c => (.ended c, none, k)
  | .running l =>
    match pollDriver (l.blind.headD false) l.receiver with
    | (r, .stop) => (.ended r.chan.dropReceiver, none, k)
    | (r, .go message) =>
      match l.state.begin message e k with
      | none => (.ended r.chan.dropReceiver, some { message }, k)
      | some ((state, started, answer), k₁) =>
        match state.work started e k₁ with
        | none => (.ended r.chan.dropReceiver, some { message, answer }, k₁)
        | some ((state, outcome, rest), k₂) =>
          (.running { state, receiver := r, blind := l.blind.tail }, some { message, answer, outcome, rest }, k₂)

end Metrix
