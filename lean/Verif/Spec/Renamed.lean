import Batteries.Data.List.Basic
import Verif.Spec.Relabel
import Verif.Spec.Within

/-!
# Other names

Two programs that differ in names and descriptive texts only. A panel, cockpit, processor, mount or driver that the one calls `n` is called
`ρ n` by the other, also in messages. Instruments, polled values and constants may have any other names. Titles and descriptions may be any
others. Everything else is the same: labels, settings, values, and the order of all parts.
-/

namespace Metrix
variable {σ L : Type}

mutual
def ItemKind.unnamed : ItemKind → ItemKind
  | .snapshot s => .snapshot (Snapshot.unnamed s)
  | .text v => .text v
  | .boolean v => .boolean v
  | .float v => .float v
  | .uint v => .uint v
  | .int v => .int v
/-- The snapshot with the same values, groups and order, in which all names are forgotten. -/
def Snapshot.unnamed : List (String × ItemKind) → List (String × ItemKind)
  | [] => []
  | (_, v) :: s => ("", v.unnamed) :: Snapshot.unnamed s
end

/-! ## Instruments -/

def Counter.Renamed (a b : Counter) : Prop := ∃ n d, b = { a with name := n, descr := d }
def Gauge.Renamed (a b : Gauge) : Prop := ∃ n d, b = { a with name := n, descr := d }
def Meter.Renamed (a b : Meter) : Prop := ∃ n d, b = { a with name := n, descr := d }
def ValueMeter.Renamed (a b : ValueMeter) : Prop := ∃ n d, b = { a with meter := { a.meter with name := n, descr := d } }
def Histogram.Renamed (a b : Histogram) : Prop := ∃ n d, b = { a with name := n, descr := d }
/-- The inverted value may have any other name as well. -/
def Flag.Renamed (a b : Flag) : Prop :=
  ∃ n d i, b = { a with name := n, descr := d, showInverted := i } ∧ i.isSome = a.showInverted.isSome
def StaircaseTimer.Renamed (a b : StaircaseTimer) : Prop :=
  ∃ n d i, b = { a with name := n, descr := d, showInverted := i } ∧ i.isSome = a.showInverted.isSome
def OccurrenceIndicator.Renamed (a b : OccurrenceIndicator) : Prop :=
  ∃ n d i, b = { a with name := n, descr := d, showInverted := i } ∧ i.isSome = a.showInverted.isSome
def NonOccurrenceIndicator.Renamed (a b : NonOccurrenceIndicator) : Prop :=
  ∃ n d i, b = { a with name := n, descr := d, showInverted := i } ∧ i.isSome = a.showInverted.isSome
def DataDisplay.Renamed (a b : DataDisplay) : Prop := ∃ n d, b = { a with name := n, descr := d }
def LastOccurrenceTracker.Renamed (a b : LastOccurrenceTracker) : Prop := ∃ n d, b = { a with name := n, descr := d }

inductive Instrument.Renamed : Instrument σ → Instrument σ → Prop
  | counter {a b} : Counter.Renamed a b → Renamed (.counter a) (.counter b)
  | gauge {a b} : Gauge.Renamed a b → Renamed (.gauge a) (.gauge b)
  | meter {a b} : Meter.Renamed a b → Renamed (.meter a) (.meter b)
  | valueMeter {a b} : ValueMeter.Renamed a b → Renamed (.valueMeter a) (.valueMeter b)
  | histogram {a b} : Histogram.Renamed a b → Renamed (.histogram a) (.histogram b)
  | flag {a b} : Flag.Renamed a b → Renamed (.flag a) (.flag b)
  | staircaseTimer {a b} : StaircaseTimer.Renamed a b → Renamed (.staircaseTimer a) (.staircaseTimer b)
  | occurrenceIndicator {a b} : OccurrenceIndicator.Renamed a b → Renamed (.occurrenceIndicator a) (.occurrenceIndicator b)
  | nonOccurrenceIndicator {a b} : NonOccurrenceIndicator.Renamed a b → Renamed (.nonOccurrenceIndicator a) (.nonOccurrenceIndicator b)
  | dataDisplay {a b} : DataDisplay.Renamed a b → Renamed (.dataDisplay a) (.dataDisplay b)
  | lastOccurrenceTracker {a b} : LastOccurrenceTracker.Renamed a b → Renamed (.lastOccurrenceTracker a) (.lastOccurrenceTracker b)
  | custom (s : σ) : Renamed (.custom s) (.custom s)

/-- `R` tells how the instruments differ. -/
def InstrumentAdapter.Renamed {I : Type} (R : I → I → Prop) (a b : InstrumentAdapter L I) : Prop :=
  ∃ i, b = { a with instrument := i } ∧ R a.instrument i

def GaugeAdapter.Renamed (a b : GaugeAdapter L) : Prop := ∃ g, b = { a with gauge := g } ∧ a.gauge.Renamed g

/-! ## Panels and cockpits -/

variable (ρ : String → String)

structure PanelHead.Renamed (a b : PanelHead L) : Prop where
  labelFilter : b.labelFilter = a.labelFilter
  name : b.name = a.name.map ρ
  counter : Option.Rel (InstrumentAdapter.Renamed Counter.Renamed) a.counter b.counter
  gauge : Option.Rel GaugeAdapter.Renamed a.gauge b.gauge
  meter : Option.Rel (InstrumentAdapter.Renamed Meter.Renamed) a.meter b.meter
  histogram : Option.Rel (InstrumentAdapter.Renamed Histogram.Renamed) a.histogram b.histogram
  activity : b.activity = a.activity

structure CockpitHead.Renamed (a b : CockpitHead) : Prop where
  name : b.name = a.name.map ρ
  activity : b.activity = a.activity

mutual
inductive Panel.Renamed : Panel σ L → Panel σ L → Prop
  | mk {h h' ps ps' hs hs' ss ss'} : PanelHead.Renamed ρ h h' → List.Forall₂ Panel.Renamed ps ps' →
      List.Forall₂ Handler.Renamed hs hs' → List.Forall₂ Snapshooter.Renamed ss ss' →
      Panel.Renamed (.mk h ps hs ss) (.mk h' ps' hs' ss')
inductive Handler.Renamed : Handler σ L → Handler σ L → Prop
  | instrument {a a'} : InstrumentAdapter.Renamed Instrument.Renamed a a' → Handler.Renamed (.instrument a) (.instrument a')
  | gauge {a a'} : GaugeAdapter.Renamed a a' → Handler.Renamed (.gauge a) (.gauge a')
  | panel {p p'} : Panel.Renamed p p' → Handler.Renamed (.panel p) (.panel p')
  | cockpit {h h' ps ps' hs hs' ss ss'} : CockpitHead.Renamed ρ h h' → List.Forall₂ Panel.Renamed ps ps' →
      List.Forall₂ Handler.Renamed hs hs' → List.Forall₂ Snapshooter.Renamed ss ss' →
      Handler.Renamed (.cockpit h ps hs ss) (.cockpit h' ps' hs' ss')
  | custom (s : σ) : Handler.Renamed (.custom s) (.custom s)
inductive Snapshooter.Renamed : Snapshooter σ L → Snapshooter σ L → Prop
  | constant (n n' : String) (d d' : Descr) (v : ItemKind) : Snapshooter.Renamed (.constant n d v) (.constant n' d' v)
  | polling (n n' : String) (d d' : Descr) (g : Bool) {s s'} : Snapshooter.Renamed s s' →
      Snapshooter.Renamed (.polling n d g s) (.polling n' d' g s')
  | instrument {i i'} : Instrument.Renamed i i' → Snapshooter.Renamed (.instrument i) (.instrument i')
  | handler {h h'} : Handler.Renamed h h' → Snapshooter.Renamed (.handler h) (.handler h')
  | custom (s : σ) : Snapshooter.Renamed (.custom s) (.custom s)
end

structure Cockpit.Renamed (a b : Cockpit σ L) : Prop where
  head : a.head.Renamed ρ b.head
  panels : List.Forall₂ (Panel.Renamed ρ) a.panels b.panels
  handlers : List.Forall₂ (Handler.Renamed ρ) a.handlers b.handlers
  snapshooters : List.Forall₂ (Snapshooter.Renamed ρ) a.snapshooters b.snapshooters

/-! ## Processors and mounts -/

inductive Message.Renamed : Message σ L → Message σ L → Prop
  | observation (o : Observation L) : Message.Renamed (.observation o) (.observation o)
  | addCockpit {c c'} : Cockpit.Renamed ρ c c' → Message.Renamed (.addCockpit c) (.addCockpit c')
  | removeCockpit (n : String) : Message.Renamed (.removeCockpit n) (.removeCockpit (ρ n))
  | addHandler {h h'} : Handler.Renamed ρ h h' → Message.Renamed (.addHandler h) (.addHandler h')
  | addPanelToCockpit (n : String) {p p'} : Panel.Renamed ρ p p' →
      Message.Renamed (.addPanelToCockpit n p) (.addPanelToCockpit (ρ n) p')
  | removePanelFromCockpit (n m : String) : Message.Renamed (.removePanelFromCockpit n m) (.removePanelFromCockpit (ρ n) (ρ m))

structure ProcessorState.Renamed (a b : ProcessorState σ L) : Prop where
  name : b.name = a.name.map ρ
  cockpits : List.Forall₂ (Cockpit.Renamed ρ) a.cockpits b.cockpits
  handlers : List.Forall₂ (Handler.Renamed ρ) a.handlers b.handlers
  snapshooters : List.Forall₂ (Snapshooter.Renamed ρ) a.snapshooters b.snapshooters
  activity : b.activity = a.activity

structure Processor.Renamed (a b : Processor σ L) : Prop where
  state : a.state.Renamed ρ b.state
  receiver : a.receiver.Like (Message.Renamed ρ) b.receiver
  isDisconnected : a.isDisconnected = b.isDisconnected

structure MountHead.Renamed (a b : MountHead) : Prop where
  name : b.name = a.name.map ρ
  lastActivity : b.lastActivity = a.lastActivity
  maxInactivity : b.maxInactivity = a.maxInactivity

/-- Answers with the same values, groups and order. -/
def AnswersRenamed (a b : Bool → Option Snapshot) : Prop :=
  (b false).map Snapshot.unnamed = (a false).map Snapshot.unnamed

mutual
inductive Node.Renamed : Node σ L → Node σ L → Prop
  | processor {p p'} : Processor.Renamed ρ p p' → Node.Renamed (.processor p) (.processor p')
  | mount {h h' ns ns' ss ss'} : MountHead.Renamed ρ h h' → List.Forall₂ Node.Renamed ns ns' →
      List.Forall₂ (Snapshooter.Renamed ρ) ss ss' → Node.Renamed (.mount h ns ss) (.mount h' ns' ss')
  | attached {h h' ns ns' ss ss' inbox inbox'} : MountHead.Renamed ρ h h' → List.Forall₂ Node.Renamed ns ns' →
      List.Forall₂ (Snapshooter.Renamed ρ) ss ss' → List.Forall₂ ArrivalsRenamed inbox inbox' →
      Node.Renamed (.attached h ns ss inbox) (.attached h' ns' ss' inbox')
  | driver {as as'} : List.Forall₂ AnswersRenamed as as' → Node.Renamed (.driver as) (.driver as')
  | custom (s : σ) : Node.Renamed (.custom s) (.custom s)
inductive ArrivalsRenamed : Arrivals (Node σ L) (Snapshooter σ L) → Arrivals (Node σ L) (Snapshooter σ L) → Prop
  | mk (closed : Bool) {ns ns' ss ss'} : List.Forall₂ Node.Renamed ns ns' → List.Forall₂ (Snapshooter.Renamed ρ) ss ss' →
      ArrivalsRenamed ⟨ns, ss, closed⟩ ⟨ns', ss', closed⟩
end

/-! ## Drivers -/

inductive DriverMsg.Renamed : DriverMsg σ L → DriverMsg σ L → Prop
  | addProcessor {n n'} : Node.Renamed ρ n n' → DriverMsg.Renamed (.addProcessor n) (.addProcessor n')
  | addSnapshooter {s s'} : Snapshooter.Renamed ρ s s' → DriverMsg.Renamed (.addSnapshooter s) (.addSnapshooter s')
  | getSnapshot (id : Nat) : DriverMsg.Renamed (.getSnapshot id false) (.getSnapshot id false)
  | setStrategy (s : Strategy) : DriverMsg.Renamed (.setStrategy s) (.setStrategy s)
  | pause : DriverMsg.Renamed .pause .pause
  | resume : DriverMsg.Renamed .resume .resume

structure LoopState.Renamed (a b : LoopState σ L) : Prop where
  name : b.name = a.name.map ρ
  metrics : a.metrics = b.metrics
  lastOutcomeLogged : a.lastOutcomeLogged = b.lastOutcomeLogged
  droppedSinceLastLogged : a.droppedSinceLastLogged = b.droppedSinceLastLogged
  processors : List.Forall₂ (Node.Renamed ρ) a.processors b.processors
  snapshooters : List.Forall₂ (Snapshooter.Renamed ρ) a.snapshooters b.snapshooters
  strategy : a.strategy = b.strategy
  paused : a.paused = b.paused
  warned : a.warned = b.warned

inductive DriverThread.Renamed : DriverThread σ L → DriverThread σ L → Prop
  | running {a b} : a.state.Renamed ρ b.state → a.receiver.Like (DriverMsg.Renamed ρ) b.receiver → a.blind = b.blind →
      DriverThread.Renamed (.running a) (.running b)
  | ended {a b} : a.Like (DriverMsg.Renamed ρ) b → DriverThread.Renamed (.ended a) (.ended b)

/-- Iterations that did the same, and whose answers have the same values, groups and order. -/
structure Iteration.Renamed (a b : Iteration σ L) : Prop where
  message : Option.Rel (DriverMsg.Renamed ρ) a.message b.message
  answer : b.answer.map Snapshot.unnamed = a.answer.map Snapshot.unnamed
  outcome : a.outcome = b.outcome
  rest : a.rest = b.rest

/-! ## What is seen -/

def Reply.unnamed : Reply → Reply
  | .outcome o => .outcome o
  | .snapshot s => .snapshot (Snapshot.unnamed s)
  | .nothing => .nothing

/-- A call other than one for a snapshot with descriptions. -/
def NodeCall.Plain : NodeCall → Prop
  | .process _ _ => True
  | .snapshot _ d => d = false

def IterationReport.unnamed (r : IterationReport) : IterationReport :=
  { r with answered := r.answered.map fun a => (a.1, Snapshot.unnamed a.2) }

/-- What a user defined processor puts into a snapshot without descriptions does not depend on what is in the snapshot. -/
def CustomProcessorFrames (σ : Type) [CustomProcessor σ] : Prop := ∀ (s : σ) (into : Snapshot) (e : Env) (k : Nat),
  CustomProcessor.putSnapshot s into false e k = (CustomProcessor.putSnapshot s [] false e k).map fun r => ((r.1.1, into ++ r.1.2), r.2)

end Metrix
