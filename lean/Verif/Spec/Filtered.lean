import Verif.Spec.Relabel

/-!
# The same labels get through

Two programs that differ in their label filters only, such that the same observations get to each instrument.

On its way to an instrument an observation passes the filters of the panels around it, from the outside to the inside,
and at last the filter of the instrument's adapter. Which filter stops it does not matter here: a label gets through
if all of them accept it.

`A` and `A'` are the labels that get to a part in the one and the other program.
-/

namespace Metrix
variable {σ L : Type} [DecidableEq L]

/-- Those of the labels that get there which the filter lets pass. -/
def LabelFilter.of (f : LabelFilter L) (A : L → Bool) : L → Bool := fun l => A l && f.accepts l

/-- The same instrument, and the same labels get through to it. -/
structure InstrumentAdapter.Sifted {I : Type} (A A' : L → Bool) (a a' : InstrumentAdapter L I) : Prop where
  filter : ∀ l, a.labelFilter.of A l = a'.labelFilter.of A' l
  modifier : a.modifyUpdate = a'.modifyUpdate
  instrument : a.instrument = a'.instrument

inductive GaugeUpdateStrategy.Sifted (A A' : L → Bool) : GaugeUpdateStrategy L → GaugeUpdateStrategy L → Prop
  | filter {f f' : LabelFilter L} : (∀ l, f.of A l = f'.of A' l) → Sifted A A' (.filter f) (.filter f')
  | deltasOnly {f f' : LabelFilter L} : (∀ l, f.of A l = f'.of A' l) → Sifted A A' (.deltasOnly f) (.deltasOnly f')
  /-- The same labels increment and the same labels decrement the gauge. A label that does both increments it. -/
  | incDecOnLabels {inc inc' dec dec' : LabelFilter L} : (∀ l, inc.of A l = inc'.of A' l) →
      (∀ l, inc.of A l = false → dec.of A l = dec'.of A' l) →
      Sifted A A' (.incDecOnLabels inc dec) (.incDecOnLabels inc' dec')

structure GaugeAdapter.Sifted (A A' : L → Bool) (a a' : GaugeAdapter L) : Prop where
  strategy : a.strategy.Sifted A A' a'.strategy
  modifier : a.modifyUpdate = a'.modifyUpdate
  gauge : a.gauge = a'.gauge

/-- The head of a panel. `A` and `A'` are the labels that get into the panel. -/
structure PanelHead.Sifted (A A' : L → Bool) (h h' : PanelHead L) : Prop where
  name : h.name = h'.name
  descr : h.descr = h'.descr
  counter : Option.Rel (InstrumentAdapter.Sifted A A') h.counter h'.counter
  gauge : Option.Rel (GaugeAdapter.Sifted A A') h.gauge h'.gauge
  meter : Option.Rel (InstrumentAdapter.Sifted A A') h.meter h'.meter
  histogram : Option.Rel (InstrumentAdapter.Sifted A A') h.histogram h'.histogram
  activity : h.activity = h'.activity

mutual
/-- The filter of a panel lets some labels pass to its parts. It may be another one in the other panel. -/
inductive Panel.Sifted : (L → Bool) → (L → Bool) → Panel σ L → Panel σ L → Prop
  | mk {A A' : L → Bool} {h h' : PanelHead L} {ps ps' : List (Panel σ L)} {hs hs' : List (Handler σ L)} (ss : List (Snapshooter σ L)) :
      PanelHead.Sifted (h.labelFilter.of A) (h'.labelFilter.of A') h h' →
      PanelsSifted (h.labelFilter.of A) (h'.labelFilter.of A') ps ps' →
      HandlersSifted (h.labelFilter.of A) (h'.labelFilter.of A') hs hs' →
      Panel.Sifted A A' (.mk h ps hs ss) (.mk h' ps' hs' ss)
inductive PanelsSifted : (L → Bool) → (L → Bool) → List (Panel σ L) → List (Panel σ L) → Prop
  | nil {A A' : L → Bool} : PanelsSifted A A' [] []
  | cons {A A' : L → Bool} {p p' : Panel σ L} {ps ps' : List (Panel σ L)} : p.Sifted A A' p' → PanelsSifted A A' ps ps' →
      PanelsSifted A A' (p :: ps) (p' :: ps')
/-- Cockpits and the user's own handlers do not filter: the same labels have to get there. -/
inductive Handler.Sifted : (L → Bool) → (L → Bool) → Handler σ L → Handler σ L → Prop
  | instrument {A A' : L → Bool} {a a' : InstrumentAdapter L (Instrument σ)} : a.Sifted A A' a' →
      Handler.Sifted A A' (.instrument a) (.instrument a')
  | gauge {A A' : L → Bool} {a a' : GaugeAdapter L} : a.Sifted A A' a' → Handler.Sifted A A' (.gauge a) (.gauge a')
  | panel {A A' : L → Bool} {p p' : Panel σ L} : p.Sifted A A' p' → Handler.Sifted A A' (.panel p) (.panel p')
  | cockpit {A A' : L → Bool} (h : CockpitHead) {ps ps' : List (Panel σ L)} {hs hs' : List (Handler σ L)}
      (ss : List (Snapshooter σ L)) : (∀ l, A l = A' l) → PanelsSifted A A' ps ps' → HandlersSifted A A' hs hs' →
      Handler.Sifted A A' (.cockpit h ps hs ss) (.cockpit h ps' hs' ss)
  | custom {A A' : L → Bool} (s : σ) : (∀ l, A l = A' l) → Handler.Sifted A A' (.custom s) (.custom s)
inductive HandlersSifted : (L → Bool) → (L → Bool) → List (Handler σ L) → List (Handler σ L) → Prop
  | nil {A A' : L → Bool} : HandlersSifted A A' [] []
  | cons {A A' : L → Bool} {h h' : Handler σ L} {hs hs' : List (Handler σ L)} : h.Sifted A A' h' → HandlersSifted A A' hs hs' →
      HandlersSifted A A' (h :: hs) (h' :: hs')
end

/-! ## All of a program

Every label gets to what is not in a panel. -/

def Panel.Filtered (p p' : Panel σ L) : Prop := p.Sifted (fun _ => true) (fun _ => true) p'
def Handler.Filtered (h h' : Handler σ L) : Prop := h.Sifted (fun _ => true) (fun _ => true) h'

structure Cockpit.Filtered (a b : Cockpit σ L) : Prop where
  head : a.head = b.head
  panels : List.Forall₂ Panel.Filtered a.panels b.panels
  handlers : List.Forall₂ Handler.Filtered a.handlers b.handlers
  snapshooters : a.snapshooters = b.snapshooters

inductive Message.Filtered : Message σ L → Message σ L → Prop
  | observation (o : Observation L) : Message.Filtered (.observation o) (.observation o)
  | addCockpit {c c'} : Cockpit.Filtered c c' → Message.Filtered (.addCockpit c) (.addCockpit c')
  | removeCockpit (n : String) : Message.Filtered (.removeCockpit n) (.removeCockpit n)
  | addHandler {h h'} : Handler.Filtered h h' → Message.Filtered (.addHandler h) (.addHandler h')
  | addPanelToCockpit (n : String) {p p'} : Panel.Filtered p p' →
      Message.Filtered (.addPanelToCockpit n p) (.addPanelToCockpit n p')
  | removePanelFromCockpit (n m : String) : Message.Filtered (.removePanelFromCockpit n m) (.removePanelFromCockpit n m)

structure ProcessorState.Filtered (a b : ProcessorState σ L) : Prop where
  name : a.name = b.name
  descr : a.descr = b.descr
  cockpits : List.Forall₂ Cockpit.Filtered a.cockpits b.cockpits
  handlers : List.Forall₂ Handler.Filtered a.handlers b.handlers
  snapshooters : a.snapshooters = b.snapshooters
  activity : a.activity = b.activity

structure Processor.Filtered (a b : Processor σ L) : Prop where
  state : a.state.Filtered b.state
  receiver : a.receiver.Like Message.Filtered b.receiver
  isDisconnected : a.isDisconnected = b.isDisconnected

mutual
inductive Node.Filtered : Node σ L → Node σ L → Prop
  | processor {p p'} : Processor.Filtered p p' → Node.Filtered (.processor p) (.processor p')
  | mount (h : MountHead) {ns ns'} (ss : List (Snapshooter σ L)) : List.Forall₂ Node.Filtered ns ns' →
      Node.Filtered (.mount h ns ss) (.mount h ns' ss)
  | attached (h : MountHead) {ns ns'} (ss : List (Snapshooter σ L)) {inbox inbox'} : List.Forall₂ Node.Filtered ns ns' →
      List.Forall₂ ArrivalsFiltered inbox inbox' →
      Node.Filtered (.attached h ns ss inbox) (.attached h ns' ss inbox')
  | driver (as : List (Bool → Option Snapshot)) : Node.Filtered (.driver as) (.driver as)
  | custom (s : σ) : Node.Filtered (.custom s) (.custom s)
inductive ArrivalsFiltered : Arrivals (Node σ L) (Snapshooter σ L) → Arrivals (Node σ L) (Snapshooter σ L) → Prop
  | mk (closed : Bool) {ns ns'} (ss : List (Snapshooter σ L)) : List.Forall₂ Node.Filtered ns ns' →
      ArrivalsFiltered ⟨ns, ss, closed⟩ ⟨ns', ss, closed⟩
end

inductive DriverMsg.Filtered : DriverMsg σ L → DriverMsg σ L → Prop
  | addProcessor {n n'} : Node.Filtered n n' → DriverMsg.Filtered (.addProcessor n) (.addProcessor n')
  | addSnapshooter (s : Snapshooter σ L) : DriverMsg.Filtered (.addSnapshooter s) (.addSnapshooter s)
  | getSnapshot (id : Nat) (d : Bool) : DriverMsg.Filtered (.getSnapshot id d) (.getSnapshot id d)
  | setStrategy (s : Strategy) : DriverMsg.Filtered (.setStrategy s) (.setStrategy s)
  | pause : DriverMsg.Filtered .pause .pause
  | resume : DriverMsg.Filtered .resume .resume

structure LoopState.Filtered (a b : LoopState σ L) : Prop where
  name : a.name = b.name
  descr : a.descr = b.descr
  metrics : a.metrics = b.metrics
  lastOutcomeLogged : a.lastOutcomeLogged = b.lastOutcomeLogged
  droppedSinceLastLogged : a.droppedSinceLastLogged = b.droppedSinceLastLogged
  processors : List.Forall₂ Node.Filtered a.processors b.processors
  snapshooters : a.snapshooters = b.snapshooters
  strategy : a.strategy = b.strategy
  paused : a.paused = b.paused
  warned : a.warned = b.warned

inductive DriverThread.Filtered : DriverThread σ L → DriverThread σ L → Prop
  | running {a b} : a.state.Filtered b.state → a.receiver.Like DriverMsg.Filtered b.receiver → a.blind = b.blind →
      DriverThread.Filtered (.running a) (.running b)
  | ended {a b} : a.Like DriverMsg.Filtered b → DriverThread.Filtered (.ended a) (.ended b)

/-- Iterations that did the same. -/
structure Iteration.Filtered (a b : Iteration σ L) : Prop where
  message : Option.Rel DriverMsg.Filtered a.message b.message
  answer : a.answer = b.answer
  outcome : a.outcome = b.outcome
  rest : a.rest = b.rest

/-! ## Moving a filter

Instead of a panel, its parts filter. -/

/-- A filter for the labels that both accept. -/
def LabelFilter.and (f g : LabelFilter L) : LabelFilter L := .predicate fun l => f.accepts l && g.accepts l

def InstrumentAdapter.narrow {I : Type} (f : LabelFilter L) (a : InstrumentAdapter L I) : InstrumentAdapter L I :=
  { a with labelFilter := f.and a.labelFilter }

def GaugeAdapter.narrow (f : LabelFilter L) (a : GaugeAdapter L) : GaugeAdapter L :=
  { a with strategy := match a.strategy with
      | .filter g => .filter (f.and g)
      | .deltasOnly g => .deltasOnly (f.and g)
      | .incDecOnLabels inc dec => .incDecOnLabels (f.and inc) (f.and dec) }

/-- Narrow a panel: what is in it stays as it is. -/
def Panel.narrow (f : LabelFilter L) : Panel σ L → Panel σ L
  | .mk h ps hs ss => .mk { h with labelFilter := f.and h.labelFilter } ps hs ss

/-- Cockpits and the user's own handlers have no filter. -/
def Handler.narrow (f : LabelFilter L) : Handler σ L → Handler σ L
  | .instrument a => .instrument (a.narrow f)
  | .gauge a => .gauge (a.narrow f)
  | .panel p => .panel (p.narrow f)
  | h => h

omit [DecidableEq L] in
/-- Whether it has a filter. -/
def Handler.filters : Handler σ L → Bool
  | .instrument _ | .gauge _ | .panel _ => true
  | .cockpit .. | .custom _ => false

/-- The panel accepts all labels, and its parts are narrowed instead. -/
def Panel.opened : Panel σ L → Panel σ L
  | .mk h ps hs ss =>
    .mk { h with
          labelFilter := .acceptAll
          counter := h.counter.map (·.narrow h.labelFilter)
          gauge := h.gauge.map (·.narrow h.labelFilter)
          meter := h.meter.map (·.narrow h.labelFilter)
          histogram := h.histogram.map (·.narrow h.labelFilter) }
      (ps.map (·.narrow h.labelFilter)) (hs.map (·.narrow h.labelFilter)) ss

end Metrix
