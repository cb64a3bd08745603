import Verif.Spec.Relabel
import Verif.Model.Transmitter

/-!
# The same program at another time

A program that was started by `c` nanoseconds later (or earlier, if `c` is negative): all clock readings, all timestamps and all moments
that are stored somewhere are later by `c`. Everything else is the same, in particular all durations, names and values, and the order of
all parts.

An operation of the standard library panics when it leaves the limits of `Instant`. If these are later by `c` as well, then both programs
are equally far away from them (`Env.later`). Otherwise (`Env.Shifted`) the programs are compared as long as neither panics.

Modifiers of updates and user defined types may use times. Those of the later program treat a time as those of the other program treat
the time `c` before it. `w` turns the state of a user defined type into the corresponding state of the later program.
-/

namespace Metrix
variable {σ L : Type}

def Env.later (c : Int) (e : Env) : Env :=
  { e with clock := fun k => e.clock k + c, instMin := e.instMin + c, instMax := e.instMax + c }

/-- Everything is by `c` later, except that nothing is said about the limits of `Instant`. -/
def Env.Shifted (c : Int) (e e' : Env) : Prop := e' = { e.later c with instMin := e'.instMin, instMax := e'.instMax }

/-- `y` does by `c` later what `x` does, and what `y` returns is obtained by `T` from what `x` returns. -/
structure M.Later (c : Int) {A B : Type} (T : A → B) (x : M A) (y : M B) : Prop where
  /-- Both panic, or both return with equally many clock readings. -/
  exact : ∀ e k, y (e.later c) k = (x e k).map fun r => (T r.1, r.2)
  /-- Wherever the limits of `Instant` are: if none of them panics, both return with equally many clock readings. -/
  agree : ∀ e e' k r r', e.Shifted c e' → x e k = some r → y e' k = some r' → r' = (T r.1, r.2)

/-- The first component is later, the second one is the same. -/
def laterFst {A B X : Type} (T : A → B) (r : A × X) : B × X := (T r.1, r.2)

def Update.later (c : Int) : Update → Update
  | .observations n t => .observations n (t + c)
  | .observation t => .observation (t + c)
  | .withValue v t => .withValue v (t + c)

def Observation.later (c : Int) : Observation L → Observation L
  | .observed l n t => .observed l n (t + c)
  | .observedOne l t => .observedOne l (t + c)
  | .observedOneValue l v t => .observedOneValue l v (t + c)

/-- User defined types do with later times what they do with the times themselves. -/
structure CustomLater (σ L : Type) [Custom σ L] (c : Int) (w : σ → σ) : Prop where
  update : ∀ (s : σ) u, M.Later c (laterFst w) (Custom.update L s u) (Custom.update L (w s) (u.later c))
  handle : ∀ (s : σ) (o : Observation L), M.Later c (laterFst w) (Custom.handle s o) (Custom.handle (w s) (o.later c))
  put : ∀ (s : σ) into d, M.Later c (laterFst w) (Custom.putSnapshot L s into d) (Custom.putSnapshot L (w s) into d)

/-- The same for user defined processors. -/
structure CustomProcessorLater (σ : Type) [CustomProcessor σ] (c : Int) (w : σ → σ) : Prop where
  process : ∀ (s : σ) max strategy,
    M.Later c (laterFst w) (CustomProcessor.process s max strategy) (CustomProcessor.process (w s) max strategy)
  put : ∀ (s : σ) into d, M.Later c (laterFst w) (CustomProcessor.putSnapshot s into d) (CustomProcessor.putSnapshot (w s) into d)

/-! ## Instruments -/

section Instruments
variable (c : Int)

def SecondsBuckets.later {T : Type} (b : SecondsBuckets T) : SecondsBuckets T := { b with currentTime := b.currentTime + c }

def Gauge.later (g : Gauge) : Gauge := { g with tracking := g.tracking.map (·.later c) }

def StdMeter.later (s : StdMeter) : StdMeter := { s with nextTick := s.nextTick + c, start := s.start + c }

def Meter.later (m : Meter) : Meter := { m with lastTick := m.lastTick + c, inner := m.inner.later c }

def ValueMeter.later (m : ValueMeter) : ValueMeter := { m with meter := m.meter.later c }

def Histogram.later (h : Histogram) : Histogram := { h with lastUpdate := h.lastUpdate + c }

def StaircaseTimer.later (t : StaircaseTimer) : StaircaseTimer := { t with stayOnUntil := t.stayOnUntil.map (· + c) }

def OccurrenceIndicator.later (i : OccurrenceIndicator) : OccurrenceIndicator := { i with happenedLast := i.happenedLast + c }

def NonOccurrenceIndicator.later (i : NonOccurrenceIndicator) : NonOccurrenceIndicator :=
  { i with happenedLast := i.happenedLast + c }

def DataDisplay.later (d : DataDisplay) : DataDisplay := { d with stayOnUntil := d.stayOnUntil.map (· + c) }

def LastOccurrenceTracker.later (t : LastOccurrenceTracker) : LastOccurrenceTracker :=
  { t with happenedLast := t.happenedLast.map (· + c) }

end Instruments

variable (c : Int) (w : σ → σ)

def Instrument.later : Instrument σ → Instrument σ
  | .counter i => .counter i
  | .gauge i => .gauge (i.later c)
  | .meter i => .meter (i.later c)
  | .valueMeter i => .valueMeter (i.later c)
  | .histogram i => .histogram (i.later c)
  | .flag i => .flag i
  | .staircaseTimer i => .staircaseTimer (i.later c)
  | .occurrenceIndicator i => .occurrenceIndicator (i.later c)
  | .nonOccurrenceIndicator i => .nonOccurrenceIndicator (i.later c)
  | .dataDisplay i => .dataDisplay (i.later c)
  | .lastOccurrenceTracker i => .lastOccurrenceTracker (i.later c)
  | .custom s => .custom (w s)

/-! ## Adapters, panels and cockpits -/

/-- The modifier that treats a time as the given one treats the time `c` before it. -/
def UpdateModifier.later (m : UpdateModifier L) : UpdateModifier L :=
  Option.map (fun f l u => (f l (Update.later (-c) u)).later c) m

/-- `T` makes the instrument a later one. -/
def InstrumentAdapter.later {I : Type} (T : I → I) (a : InstrumentAdapter L I) : InstrumentAdapter L I :=
  { a with instrument := T a.instrument, modifyUpdate := UpdateModifier.later c a.modifyUpdate }

def GaugeAdapter.later (a : GaugeAdapter L) : GaugeAdapter L :=
  { a with gauge := a.gauge.later c, modifyUpdate := UpdateModifier.later c a.modifyUpdate }

def Activity.later (a : Activity) : Activity := { a with lastActivity := a.lastActivity + c }

def PanelHead.later (h : PanelHead L) : PanelHead L :=
  { h with
    counter := h.counter.map (·.later c id)
    gauge := h.gauge.map (·.later c)
    meter := h.meter.map (·.later c (Meter.later c))
    histogram := h.histogram.map (·.later c (Histogram.later c))
    activity := h.activity.later c }

def CockpitHead.later (h : CockpitHead) : CockpitHead := { h with activity := h.activity.later c }

mutual
def Panel.later : Panel σ L → Panel σ L
  | .mk h ps hs ss => .mk (h.later c) (laterPanels ps) (laterHandlers hs) (laterSnapshooters ss)
def laterPanels : List (Panel σ L) → List (Panel σ L)
  | [] => []
  | p :: ps => p.later :: laterPanels ps
def Handler.later : Handler σ L → Handler σ L
  | .instrument a => .instrument (a.later c (Instrument.later c w))
  | .gauge a => .gauge (a.later c)
  | .panel p => .panel p.later
  | .cockpit h ps hs ss => .cockpit (h.later c) (laterPanels ps) (laterHandlers hs) (laterSnapshooters ss)
  | .custom s => .custom (w s)
def laterHandlers : List (Handler σ L) → List (Handler σ L)
  | [] => []
  | h :: hs => h.later :: laterHandlers hs
def Snapshooter.later : Snapshooter σ L → Snapshooter σ L
  | .constant n d v => .constant n d v
  | .polling n d g s => .polling n d g s.later
  | .instrument i => .instrument (i.later c w)
  | .handler h => .handler h.later
  | .custom s => .custom (w s)
def laterSnapshooters : List (Snapshooter σ L) → List (Snapshooter σ L)
  | [] => []
  | s :: ss => s.later :: laterSnapshooters ss
end

def Cockpit.later (x : Cockpit σ L) : Cockpit σ L where
  head := x.head.later c
  panels := x.panels.map (·.later c w)
  handlers := x.handlers.map (·.later c w)
  snapshooters := x.snapshooters.map (·.later c w)

/-! ## Processors and mounts -/

def Message.later : Message σ L → Message σ L
  | .observation o => .observation (o.later c)
  | .addCockpit x => .addCockpit (x.later c w)
  | .removeCockpit n => .removeCockpit n
  | .addHandler h => .addHandler (h.later c w)
  | .addPanelToCockpit n p => .addPanelToCockpit n (p.later c w)
  | .removePanelFromCockpit n m => .removePanelFromCockpit n m

def ProcessorState.later (s : ProcessorState σ L) : ProcessorState σ L :=
  { s with
    cockpits := s.cockpits.map (·.later c w)
    handlers := s.handlers.map (·.later c w)
    snapshooters := s.snapshooters.map (·.later c w)
    activity := s.activity.later c }

def Processor.later (p : Processor σ L) : Processor σ L where
  state := p.state.later c w
  receiver := p.receiver.map (Message.later c w)
  isDisconnected := p.isDisconnected

def MountHead.later (h : MountHead) : MountHead := { h with lastActivity := h.lastActivity + c }

mutual
def Node.later : Node σ L → Node σ L
  | .processor p => .processor (p.later c w)
  | .mount h ns ss => .mount (h.later c) (laterNodes ns) (ss.map (·.later c w))
  | .attached h ns ss inbox => .attached (h.later c) (laterNodes ns) (ss.map (·.later c w)) (arrivalsLater inbox)
  | .driver as => .driver as
  | .custom s => .custom (w s)
def laterNodes : List (Node σ L) → List (Node σ L)
  | [] => []
  | n :: ns => n.later :: laterNodes ns
def arrivalsLater : List (Arrivals (Node σ L) (Snapshooter σ L)) → List (Arrivals (Node σ L) (Snapshooter σ L))
  | [] => []
  | ⟨ns, ss, closed⟩ :: as => ⟨laterNodes ns, ss.map (·.later c w), closed⟩ :: arrivalsLater as
end

/-! ## Drivers -/

def DriverInstruments.later (i : DriverInstruments) : DriverInstruments where
  collectionsPerSecond := i.collectionsPerSecond.later c
  collectionTimes := i.collectionTimes.later c
  processedPerSecond := i.processedPerSecond.later c
  processedPerCollection := i.processedPerCollection.later c
  droppedPerSecond := i.droppedPerSecond.later c
  droppedPerCollection := i.droppedPerCollection.later c
  enqueued := i.enqueued.later c
  updatedPerSecond := i.updatedPerSecond.later c
  snapshotsPerSecond := i.snapshotsPerSecond.later c
  snapshotTimes := i.snapshotTimes.later c
  droppedAlarm := i.droppedAlarm.later c
  inactivityAlarm := i.inactivityAlarm.later c
  ratioHisto := i.ratioHisto.later c
  ratio := i.ratio.later c

def DriverMsg.later : DriverMsg σ L → DriverMsg σ L
  | .addProcessor n => .addProcessor (n.later c w)
  | .addSnapshooter s => .addSnapshooter (s.later c w)
  | .getSnapshot id d => .getSnapshot id d
  | .setStrategy s => .setStrategy s
  | .pause => .pause
  | .resume => .resume

def LoopState.later (l : LoopState σ L) : LoopState σ L :=
  { l with
    metrics := l.metrics.map (·.later c)
    lastOutcomeLogged := l.lastOutcomeLogged + c
    processors := l.processors.map (·.later c w)
    snapshooters := l.snapshooters.map (·.later c w) }

def DriverThread.later : DriverThread σ L → DriverThread σ L
  | .running l => .running { state := l.state.later c w, receiver := l.receiver.map (DriverMsg.later c w), blind := l.blind }
  | .ended x => .ended (x.map (DriverMsg.later c w))

def Iteration.later (i : Iteration σ L) : Iteration σ L := { i with message := i.message.map (DriverMsg.later c w) }

/-! ## Calls of transmitters -/

/-- The same call with later times in its arguments. -/
def TransmitCall.later : TransmitCall σ L → TransmitCall σ L
  | .transmit o => .transmit (o.later c)
  | .observed l n t => .observed l n (t + c)
  | .observedOne l t => .observedOne l (t + c)
  | .observedOneValue l v t => .observedOneValue l v (t + c)
  | .observedDuration l d t => .observedDuration l d (t + c)
  | .observedNow l n => .observedNow l n
  | .observedOneNow l => .observedOneNow l
  | .observedOneValueNow l v => .observedOneValueNow l v
  | .observedOneDurationNow l d => .observedOneDurationNow l d
  | .measureTime l start => .measureTime l (start + c)
  | .addHandler h => .addHandler (h.later c w)
  | .addCockpit x => .addCockpit (x.later c w)
  | .removeCockpit n => .removeCockpit n
  | .addPanelToCockpit n p => .addPanelToCockpit n (p.later c w)
  | .removePanelFromCockpit n m => .removePanelFromCockpit n m

end Metrix
