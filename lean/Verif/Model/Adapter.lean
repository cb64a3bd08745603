import Verif.Model.LabelFilter
import Verif.Model.Counter
import Verif.Model.Gauge
import Verif.Model.Meter
import Verif.Model.Histogram
import Verif.Model.Switches
import Verif.Model.Others

/-!
# Instruments behind adapters: `src/instruments/mod.rs`, `src/instruments/instrument_adapter.rs`,
`src/instruments/gauge/gauge_adapter.rs`
-/

namespace Metrix

/-- The traits `Updates`, `PutsSnapshot` and `Instrument` (`src/instruments/mod.rs:111-123`,
`src/lib.rs:414-418`). `put_snapshot` takes `&self`, but instruments have interior
mutability, so the instrument after the call is returned too. -/
class IsInstrument (I : Type) where
  update : I → Update → M (I × Nat)
  putSnapshot : I → Snapshot → Bool → M (I × Snapshot)

/-- Lift a `put_snapshot` that cannot change the instrument. -/
def keeping {I : Type} (f : I → Snapshot → Bool → M Snapshot) (i : I) (into : Snapshot) (d : Bool) :
    M (I × Snapshot) := do return (i, ← f i into d)

instance : IsInstrument Counter where
  update := Counter.update
  putSnapshot := keeping fun c s d => pure (c.putSnapshot s d)
instance : IsInstrument Gauge where
  update := Gauge.update
  putSnapshot := Gauge.putSnapshot
instance : IsInstrument Meter where
  update := Meter.update
  putSnapshot := Meter.putSnapshot
instance : IsInstrument ValueMeter where
  update := ValueMeter.update
  putSnapshot := ValueMeter.putSnapshot
instance : IsInstrument Histogram where
  update := Histogram.update
  putSnapshot := keeping Histogram.putSnapshot
instance : IsInstrument Flag where
  update f u := pure (f.update u)
  putSnapshot := keeping fun f s d => pure (f.putSnapshot s d)
instance : IsInstrument StaircaseTimer where
  update := StaircaseTimer.update
  putSnapshot := keeping StaircaseTimer.putSnapshot
instance : IsInstrument OccurrenceIndicator where
  update := OccurrenceIndicator.update
  putSnapshot := keeping OccurrenceIndicator.putSnapshot
instance : IsInstrument NonOccurrenceIndicator where
  update := NonOccurrenceIndicator.update
  putSnapshot := keeping NonOccurrenceIndicator.putSnapshot
instance : IsInstrument DataDisplay where
  update := DataDisplay.update
  putSnapshot := keeping DataDisplay.putSnapshot
instance : IsInstrument LastOccurrenceTracker where
  update := LastOccurrenceTracker.update
  putSnapshot := keeping LastOccurrenceTracker.putSnapshot

/-- What user defined types that implement the crate's traits do. `σ` is their state; nothing is
assumed about the functions. -/
class Custom (σ L : Type) where
  /-- `Updates::update` (`src/instruments/mod.rs:119`) -/
  update : σ → Update → M (σ × Nat)
  /-- `HandlesObservations::handle_observation` (`src/lib.rs:144`) -/
  handle : σ → Observation L → M (σ × Nat)
  /-- `PutsSnapshot::put_snapshot` (`src/lib.rs:417`) -/
  putSnapshot : σ → Snapshot → Bool → M (σ × Snapshot)

/-- `Box<dyn Instrument>`: one of the instruments of the crate or a user defined one. -/
inductive Instrument (σ : Type)
  | counter (i : Counter)
  | gauge (i : Gauge)
  | meter (i : Meter)
  | valueMeter (i : ValueMeter)
  | histogram (i : Histogram)
  | flag (i : Flag)
  | staircaseTimer (i : StaircaseTimer)
  | occurrenceIndicator (i : OccurrenceIndicator)
  | nonOccurrenceIndicator (i : NonOccurrenceIndicator)
  | dataDisplay (i : DataDisplay)
  | lastOccurrenceTracker (i : LastOccurrenceTracker)
  | custom (s : σ)

namespace Instrument
variable {σ : Type} (L : Type) [Custom σ L]

/-- Dynamic dispatch of `Updates::update` (`src/instruments/mod.rs:119`). -/
def update (i : Instrument σ) (u : Update) : M (Instrument σ × Nat) :=
  let via {I : Type} [IsInstrument I] (wrap : I → Instrument σ) (i : I) : M (Instrument σ × Nat) := do
    let (i, n) ← IsInstrument.update i u
    return (wrap i, n)
  match i with
  | .counter i => via .counter i
  | .gauge i => via .gauge i
  | .meter i => via .meter i
  | .valueMeter i => via .valueMeter i
  | .histogram i => via .histogram i
  | .flag i => via .flag i
  | .staircaseTimer i => via .staircaseTimer i
  | .occurrenceIndicator i => via .occurrenceIndicator i
  | .nonOccurrenceIndicator i => via .nonOccurrenceIndicator i
  | .dataDisplay i => via .dataDisplay i
  | .lastOccurrenceTracker i => via .lastOccurrenceTracker i
  | .custom s => do
    let (s, n) ← Custom.update L s u
    return (.custom s, n)

/-- Dynamic dispatch of `PutsSnapshot::put_snapshot` (`src/lib.rs:417`). -/
def putSnapshot (i : Instrument σ) (into : Snapshot) (descriptive : Bool) :
    M (Instrument σ × Snapshot) :=
  let via {I : Type} [IsInstrument I] (wrap : I → Instrument σ) (i : I) :
      M (Instrument σ × Snapshot) := do
    let (i, s) ← IsInstrument.putSnapshot i into descriptive
    return (wrap i, s)
  match i with
  | .counter i => via .counter i
  | .gauge i => via .gauge i
  | .meter i => via .meter i
  | .valueMeter i => via .valueMeter i
  | .histogram i => via .histogram i
  | .flag i => via .flag i
  | .staircaseTimer i => via .staircaseTimer i
  | .occurrenceIndicator i => via .occurrenceIndicator i
  | .nonOccurrenceIndicator i => via .nonOccurrenceIndicator i
  | .dataDisplay i => via .dataDisplay i
  | .lastOccurrenceTracker i => via .lastOccurrenceTracker i
  | .custom s => do
    let (s, into) ← Custom.putSnapshot L s into descriptive
    return (.custom s, into)

end Instrument

/-- `src/instruments/instrument_adapter.rs:6-18` (`UpdateModifier`): `none` is `KeepAsIs`. The user's closure
is a pure total function here. -/
def UpdateModifier (L : Type) : Type := Option (L → Update → Update)

/-- `src/instruments/instrument_adapter.rs:12-17` (`modify`). -/
def UpdateModifier.modify {L : Type} (m : UpdateModifier L) (label : L) (u : Update) : Update :=
  match m with
  | none => u
  | some f => f label u

/-- `src/instruments/instrument_adapter.rs:20-24` (`InstrumentAdapter`). -/
structure InstrumentAdapter (L I : Type) where
  labelFilter : LabelFilter L
  instrument : I
  modifyUpdate : UpdateModifier L := none

namespace InstrumentAdapter
variable {L I : Type}

/-- `src/instruments/instrument_adapter.rs:31-37` (`new`); also `From<I>` (123-131). -/
def new (instrument : I) : InstrumentAdapter L I := { instrument, labelFilter := .acceptAll }

/-- `src/instruments/instrument_adapter.rs:39-60` (`accept`, `for_label`, `for_labels`, `by_predicate`). -/
def accept (f : LabelFilter L) (instrument : I) : InstrumentAdapter L I :=
  { instrument, labelFilter := f }

/-- `src/instruments/instrument_adapter.rs:62-68` (`deaf`). -/
def deaf (instrument : I) : InstrumentAdapter L I := { instrument, labelFilter := .acceptNone }

/-- `src/instruments/instrument_adapter.rs:70-73` (`accept_no_labels`). -/
def acceptNoLabels (a : InstrumentAdapter L I) : InstrumentAdapter L I :=
  { a with labelFilter := .acceptNone }

/-- `src/instruments/instrument_adapter.rs:75-78` (`accept_all_labels`). -/
def acceptAllLabels (a : InstrumentAdapter L I) : InstrumentAdapter L I :=
  { a with labelFilter := .acceptAll }

/-- `src/instruments/instrument_adapter.rs:80-86` (`modify_with`). -/
def modifyWith (a : InstrumentAdapter L I) (f : L → Update → Update) : InstrumentAdapter L I :=
  { a with modifyUpdate := some f }

/-- `src/instruments/instrument_adapter.rs:100-110` (`handle_observation`). `update` is the instrument's
`Updates::update`. -/
def handle [DecidableEq L] (update : I → Update → M (I × Nat)) (a : InstrumentAdapter L I)
    (o : Observation L) : M (InstrumentAdapter L I × Nat) :=
  if a.labelFilter.accepts o.label then do
    let (i, n) ← update a.instrument (a.modifyUpdate.modify o.label o.toUpdate)
    return ({ a with instrument := i }, n)
  else return (a, 0)

/-- `src/instruments/instrument_adapter.rs:113-121` (`put_snapshot`). -/
def putSnapshot (put : I → Snapshot → Bool → M (I × Snapshot)) (a : InstrumentAdapter L I)
    (into : Snapshot) (descriptive : Bool) : M (InstrumentAdapter L I × Snapshot) := do
  let (i, into) ← put a.instrument into descriptive
  return ({ a with instrument := i }, into)

end InstrumentAdapter

/-- `src/instruments/gauge/gauge_adapter.rs:237-241` (`GaugeUpdateStrategy`). -/
inductive GaugeUpdateStrategy (L : Type)
  | filter (f : LabelFilter L)
  | deltasOnly (f : LabelFilter L)
  | incDecOnLabels (inc dec : LabelFilter L)

/-- `src/instruments/gauge/gauge_adapter.rs:10-14` (`GaugeAdapter`). -/
structure GaugeAdapter (L : Type) where
  strategy : GaugeUpdateStrategy L
  gauge : Gauge
  modifyUpdate : UpdateModifier L := none

namespace GaugeAdapter
variable {L : Type}

/-- `src/instruments/gauge/gauge_adapter.rs:26-55` (`accept`, `for_label`, `for_labels`,
`for_labels_by_predicate`). -/
def accept (f : LabelFilter L) (gauge : Gauge) : GaugeAdapter L := { gauge, strategy := .filter f }

/-- `src/instruments/gauge/gauge_adapter.rs:22-24` (`new`); also `From<Gauge>` (228-235). -/
def new (gauge : Gauge) : GaugeAdapter L := accept .acceptAll gauge

/-- `src/instruments/gauge/gauge_adapter.rs:57-63` (`deltas_only`). -/
def deltasOnly (f : LabelFilter L) (gauge : Gauge) : GaugeAdapter L :=
  { gauge, strategy := .deltasOnly f }

/-- `src/instruments/gauge/gauge_adapter.rs:103-144` (`inc_dec_on`, `inc_dec_on_many`,
`inc_dec_by_predicates`). -/
def incDecOn (inc dec : LabelFilter L) (gauge : Gauge) : GaugeAdapter L :=
  { gauge, strategy := .incDecOnLabels inc dec }

/-- `src/instruments/gauge/gauge_adapter.rs:148-154` (`deaf`). -/
def deaf (gauge : Gauge) : GaugeAdapter L := { gauge, strategy := .filter .acceptNone }

/-- `self.gauge.update(..)` within `handle_observation`. -/
def updateGauge (a : GaugeAdapter L) (u : Update) : M (GaugeAdapter L × Nat) := do
  let (g, n) ← a.gauge.update u
  return ({ a with gauge := g }, n)

/-- `src/instruments/gauge/gauge_adapter.rs:175-216` (`handle_observation`). -/
def handle [DecidableEq L] (a : GaugeAdapter L) (o : Observation L) : M (GaugeAdapter L × Nat) :=
  match a.strategy with
  | .filter f =>
    if f.accepts o.label then a.updateGauge (a.modifyUpdate.modify o.label o.toUpdate)
    else return (a, 0)
  | .deltasOnly f =>
    if f.accepts o.label then
      match a.modifyUpdate.modify o.label o.toUpdate with
      | .withValue (.changedBy d) t => a.updateGauge (.withValue (.changedBy d) t)
      | _ => return (a, 0)
    else return (a, 0)
  | .incDecOnLabels inc dec =>
    if inc.accepts o.label then a.updateGauge (.withValue (.changedBy 1) o.timestamp)
    else if dec.accepts o.label then a.updateGauge (.withValue (.changedBy (-1)) o.timestamp)
    else return (a, 0)

/-- `src/instruments/gauge/gauge_adapter.rs:219-226` (`put_snapshot`). -/
def putSnapshot (a : GaugeAdapter L) (into : Snapshot) (descriptive : Bool) :
    M (GaugeAdapter L × Snapshot) := do
  let (g, into) ← a.gauge.putSnapshot into descriptive
  return ({ a with gauge := g }, into)

end GaugeAdapter
end Metrix
