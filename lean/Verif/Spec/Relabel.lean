import Batteries.Data.List.Basic
import Verif.Spec.Driver
import Verif.Spec.SafeRun

/-!
# Other labels

Two programs that differ in their labels only: where the one uses the label `l`, the other uses `f l`. The filters,
the modifiers of updates and the user's own handlers of the one treat `l` as those of the other treat `f l`.
Everything else is the same: names, texts, instruments, and the order of all parts.

`f` need not be injective. It may also be the identity: then the two programs have the same labels and filters that
accept the same ones, but perhaps are built in different ways.
-/

namespace Metrix
variable {σ L L' : Type}

/-- The same observation with another label. -/
def Observation.relabel (f : L → L') : Observation L → Observation L'
  | .observed l n t => .observed (f l) n t
  | .observedOne l t => .observedOne (f l) t
  | .observedOneValue l v t => .observedOneValue (f l) v t

/-- One filter accepts `f l` if and only if the other accepts `l`. -/
def LabelFilter.Like [DecidableEq L] [DecidableEq L'] (f : L → L') (a : LabelFilter L) (b : LabelFilter L') : Prop :=
  ∀ l, b.accepts (f l) = a.accepts l

/-- One modifier changes updates with the label `f l` as the other changes those with the label `l`. -/
def UpdateModifier.Like (f : L → L') (a : UpdateModifier L) (b : UpdateModifier L') : Prop :=
  ∀ l u, b.modify (f l) u = a.modify l u

/-- User defined types do with `f l` what they do with `l`. -/
structure CustomLike (σ : Type) [Custom σ L] [Custom σ L'] (f : L → L') : Prop where
  update : ∀ (s : σ) u, Custom.update L' s u = Custom.update L s u
  handle : ∀ (s : σ) o, Custom.handle s (Observation.relabel f o) = Custom.handle s o
  put : ∀ (s : σ) into d, Custom.putSnapshot L' s into d = Custom.putSnapshot L s into d

variable [DecidableEq L] [DecidableEq L'] (f : L → L')

structure InstrumentAdapter.Like {I : Type} (a : InstrumentAdapter L I) (b : InstrumentAdapter L' I) : Prop where
  filter : a.labelFilter.Like f b.labelFilter
  modifier : UpdateModifier.Like f a.modifyUpdate b.modifyUpdate
  instrument : a.instrument = b.instrument

inductive GaugeUpdateStrategy.Like : GaugeUpdateStrategy L → GaugeUpdateStrategy L' → Prop
  | filter {a : LabelFilter L} {b : LabelFilter L'} : a.Like f b → Like (.filter a) (.filter b)
  | deltasOnly {a : LabelFilter L} {b : LabelFilter L'} : a.Like f b → Like (.deltasOnly a) (.deltasOnly b)
  | incDecOnLabels {a c : LabelFilter L} {b d : LabelFilter L'} : a.Like f b → c.Like f d →
      Like (.incDecOnLabels a c) (.incDecOnLabels b d)

structure GaugeAdapter.Like (a : GaugeAdapter L) (b : GaugeAdapter L') : Prop where
  strategy : a.strategy.Like f b.strategy
  modifier : UpdateModifier.Like f a.modifyUpdate b.modifyUpdate
  gauge : a.gauge = b.gauge

structure PanelHead.Like (a : PanelHead L) (b : PanelHead L') : Prop where
  filter : a.labelFilter.Like f b.labelFilter
  name : a.name = b.name
  descr : a.descr = b.descr
  counter : Option.Rel (InstrumentAdapter.Like f) a.counter b.counter
  gauge : Option.Rel (GaugeAdapter.Like f) a.gauge b.gauge
  meter : Option.Rel (InstrumentAdapter.Like f) a.meter b.meter
  histogram : Option.Rel (InstrumentAdapter.Like f) a.histogram b.histogram
  activity : a.activity = b.activity

mutual
inductive Panel.Like : Panel σ L → Panel σ L' → Prop
  | mk {h h' ps ps' hs hs' ss ss'} : PanelHead.Like f h h' → List.Forall₂ Panel.Like ps ps' →
      List.Forall₂ Handler.Like hs hs' → List.Forall₂ Snapshooter.Like ss ss' →
      Panel.Like (.mk h ps hs ss) (.mk h' ps' hs' ss')
inductive Handler.Like : Handler σ L → Handler σ L' → Prop
  | instrument {a a'} : InstrumentAdapter.Like f a a' → Handler.Like (.instrument a) (.instrument a')
  | gauge {a a'} : GaugeAdapter.Like f a a' → Handler.Like (.gauge a) (.gauge a')
  | panel {p p'} : Panel.Like p p' → Handler.Like (.panel p) (.panel p')
  | cockpit {h ps ps' hs hs' ss ss'} : List.Forall₂ Panel.Like ps ps' → List.Forall₂ Handler.Like hs hs' →
      List.Forall₂ Snapshooter.Like ss ss' → Handler.Like (.cockpit h ps hs ss) (.cockpit h ps' hs' ss')
  | custom (s : σ) : Handler.Like (.custom s) (.custom s)
inductive Snapshooter.Like : Snapshooter σ L → Snapshooter σ L' → Prop
  | constant (n : String) (d : Descr) (v : ItemKind) : Snapshooter.Like (.constant n d v) (.constant n d v)
  | polling (n : String) (d : Descr) (g : Bool) {s s'} : Snapshooter.Like s s' →
      Snapshooter.Like (.polling n d g s) (.polling n d g s')
  | instrument (i : Instrument σ) : Snapshooter.Like (.instrument i) (.instrument i)
  | handler {h h'} : Handler.Like h h' → Snapshooter.Like (.handler h) (.handler h')
  | custom (s : σ) : Snapshooter.Like (.custom s) (.custom s)
end

structure Cockpit.Like (a : Cockpit σ L) (b : Cockpit σ L') : Prop where
  head : a.head = b.head
  panels : List.Forall₂ (Panel.Like f) a.panels b.panels
  handlers : List.Forall₂ (Handler.Like f) a.handlers b.handlers
  snapshooters : List.Forall₂ (Snapshooter.Like f) a.snapshooters b.snapshooters

inductive Message.Like : Message σ L → Message σ L' → Prop
  | observation (o : Observation L) : Message.Like (.observation o) (.observation (o.relabel f))
  | addCockpit {c c'} : Cockpit.Like f c c' → Message.Like (.addCockpit c) (.addCockpit c')
  | removeCockpit (n : String) : Message.Like (.removeCockpit n) (.removeCockpit n)
  | addHandler {h h'} : Handler.Like f h h' → Message.Like (.addHandler h) (.addHandler h')
  | addPanelToCockpit (n : String) {p p'} : Panel.Like f p p' →
      Message.Like (.addPanelToCockpit n p) (.addPanelToCockpit n p')
  | removePanelFromCockpit (n m : String) : Message.Like (.removePanelFromCockpit n m) (.removePanelFromCockpit n m)

omit [DecidableEq L] [DecidableEq L'] in
/-- Threads that send messages which are related by `R`, one by one. -/
structure SendThread.Like {μ ν : Type} (R : μ → ν → Prop) (a : SendThread μ) (b : SendThread ν) : Prop where
  todo : List.Forall₂ R a.todo b.todo
  drops : a.drops = b.drops
  holds : a.holds = b.holds

omit [DecidableEq L] [DecidableEq L'] in
/-- Channels with messages that are related by `R`, one by one. -/
structure Channel.Like {μ ν : Type} (R : μ → ν → Prop) (a : Channel μ) (b : Channel ν) : Prop where
  queue : List.Forall₂ (fun x y => x.1 = y.1 ∧ R x.2 y.2) a.queue b.queue
  cap : a.cap = b.cap
  useSend : a.useSend = b.useSend
  receiver : a.receiver = b.receiver
  threads : List.Forall₂ (SendThread.Like R) a.threads b.threads

omit [DecidableEq L] [DecidableEq L'] in
/-- The same schedule of the sending threads. -/
structure Receiver.Like {μ ν : Type} (R : μ → ν → Prop) (a : Receiver μ) (b : Receiver ν) : Prop where
  chan : a.chan.Like R b.chan
  ahead : a.ahead = b.ahead

structure ProcessorState.Like (a : ProcessorState σ L) (b : ProcessorState σ L') : Prop where
  name : a.name = b.name
  descr : a.descr = b.descr
  cockpits : List.Forall₂ (Cockpit.Like f) a.cockpits b.cockpits
  handlers : List.Forall₂ (Handler.Like f) a.handlers b.handlers
  snapshooters : List.Forall₂ (Snapshooter.Like f) a.snapshooters b.snapshooters
  activity : a.activity = b.activity

structure Processor.Like (a : Processor σ L) (b : Processor σ L') : Prop where
  state : a.state.Like f b.state
  receiver : a.receiver.Like (Message.Like f) b.receiver
  isDisconnected : a.isDisconnected = b.isDisconnected

mutual
inductive Node.Like : Node σ L → Node σ L' → Prop
  | processor {p p'} : Processor.Like f p p' → Node.Like (.processor p) (.processor p')
  | mount (h : MountHead) {ns ns' ss ss'} : List.Forall₂ Node.Like ns ns' → List.Forall₂ (Snapshooter.Like f) ss ss' →
      Node.Like (.mount h ns ss) (.mount h ns' ss')
  | attached (h : MountHead) {ns ns' ss ss' inbox inbox'} : List.Forall₂ Node.Like ns ns' →
      List.Forall₂ (Snapshooter.Like f) ss ss' → List.Forall₂ ArrivalsLike inbox inbox' →
      Node.Like (.attached h ns ss inbox) (.attached h ns' ss' inbox')
  | driver (as : List (Bool → Option Snapshot)) : Node.Like (.driver as) (.driver as)
  | custom (s : σ) : Node.Like (.custom s) (.custom s)
inductive ArrivalsLike : Arrivals (Node σ L) (Snapshooter σ L) → Arrivals (Node σ L') (Snapshooter σ L') → Prop
  | mk (closed : Bool) {ns ns' ss ss'} : List.Forall₂ Node.Like ns ns' → List.Forall₂ (Snapshooter.Like f) ss ss' →
      ArrivalsLike ⟨ns, ss, closed⟩ ⟨ns', ss', closed⟩
end

inductive DriverMsg.Like : DriverMsg σ L → DriverMsg σ L' → Prop
  | addProcessor {n n'} : Node.Like f n n' → DriverMsg.Like (.addProcessor n) (.addProcessor n')
  | addSnapshooter {s s'} : Snapshooter.Like f s s' → DriverMsg.Like (.addSnapshooter s) (.addSnapshooter s')
  | getSnapshot (id : Nat) (d : Bool) : DriverMsg.Like (.getSnapshot id d) (.getSnapshot id d)
  | setStrategy (s : Strategy) : DriverMsg.Like (.setStrategy s) (.setStrategy s)
  | pause : DriverMsg.Like .pause .pause
  | resume : DriverMsg.Like .resume .resume

structure LoopState.Like (a : LoopState σ L) (b : LoopState σ L') : Prop where
  name : a.name = b.name
  descr : a.descr = b.descr
  metrics : a.metrics = b.metrics
  lastOutcomeLogged : a.lastOutcomeLogged = b.lastOutcomeLogged
  droppedSinceLastLogged : a.droppedSinceLastLogged = b.droppedSinceLastLogged
  processors : List.Forall₂ (Node.Like f) a.processors b.processors
  snapshooters : List.Forall₂ (Snapshooter.Like f) a.snapshooters b.snapshooters
  strategy : a.strategy = b.strategy
  paused : a.paused = b.paused
  warned : a.warned = b.warned

inductive DriverThread.Like : DriverThread σ L → DriverThread σ L' → Prop
  | running {a b} : a.state.Like f b.state → a.receiver.Like (DriverMsg.Like f) b.receiver → a.blind = b.blind →
      DriverThread.Like (.running a) (.running b)
  | ended {a b} : a.Like (DriverMsg.Like f) b → DriverThread.Like (.ended a) (.ended b)

/-- Iterations that did the same. -/
structure Iteration.Like (a : Iteration σ L) (b : Iteration σ L') : Prop where
  message : Option.Rel (DriverMsg.Like f) a.message b.message
  answer : a.answer = b.answer
  outcome : a.outcome = b.outcome
  rest : a.rest = b.rest

/-! ## Renaming

Every label `l` is replaced by `f l`. Predicates and modifiers, which are functions, get back `l` by `g`. -/

section Rename
omit [DecidableEq L] [DecidableEq L']
variable (g : L' → L)

def LabelFilter.rename : LabelFilter L → LabelFilter L'
  | .acceptNone => .acceptNone
  | .acceptAll => .acceptAll
  | .one a => .one (f a)
  | .two a b => .two (f a) (f b)
  | .three a b c => .three (f a) (f b) (f c)
  | .four a b c d => .four (f a) (f b) (f c) (f d)
  | .five a b c d e => .five (f a) (f b) (f c) (f d) (f e)
  | .many ls => .many (ls.map f)
  | .predicate p => .predicate fun l => p (g l)

def UpdateModifier.rename : UpdateModifier L → UpdateModifier L' :=
  Option.map fun m l u => m (g l) u

def InstrumentAdapter.rename {I : Type} (a : InstrumentAdapter L I) : InstrumentAdapter L' I where
  labelFilter := a.labelFilter.rename f g
  instrument := a.instrument
  modifyUpdate := UpdateModifier.rename g a.modifyUpdate

def GaugeUpdateStrategy.rename : GaugeUpdateStrategy L → GaugeUpdateStrategy L'
  | .filter a => .filter (a.rename f g)
  | .deltasOnly a => .deltasOnly (a.rename f g)
  | .incDecOnLabels a b => .incDecOnLabels (a.rename f g) (b.rename f g)

def GaugeAdapter.rename (a : GaugeAdapter L) : GaugeAdapter L' where
  strategy := a.strategy.rename f g
  gauge := a.gauge
  modifyUpdate := UpdateModifier.rename g a.modifyUpdate

def PanelHead.rename (h : PanelHead L) : PanelHead L' where
  labelFilter := h.labelFilter.rename f g
  name := h.name
  descr := h.descr
  counter := h.counter.map (·.rename f g)
  gauge := h.gauge.map (·.rename f g)
  meter := h.meter.map (·.rename f g)
  histogram := h.histogram.map (·.rename f g)
  activity := h.activity

mutual
def Panel.rename : Panel σ L → Panel σ L'
  | .mk h ps hs ss => .mk (h.rename f g) (renamePanels ps) (renameHandlers hs) (renameSnapshooters ss)
def renamePanels : List (Panel σ L) → List (Panel σ L')
  | [] => []
  | p :: ps => p.rename :: renamePanels ps
def Handler.rename : Handler σ L → Handler σ L'
  | .instrument a => .instrument (a.rename f g)
  | .gauge a => .gauge (a.rename f g)
  | .panel p => .panel p.rename
  | .cockpit h ps hs ss => .cockpit h (renamePanels ps) (renameHandlers hs) (renameSnapshooters ss)
  | .custom s => .custom s
def renameHandlers : List (Handler σ L) → List (Handler σ L')
  | [] => []
  | h :: hs => h.rename :: renameHandlers hs
def Snapshooter.rename : Snapshooter σ L → Snapshooter σ L'
  | .constant n d v => .constant n d v
  | .polling n d b s => .polling n d b s.rename
  | .instrument i => .instrument i
  | .handler h => .handler h.rename
  | .custom s => .custom s
def renameSnapshooters : List (Snapshooter σ L) → List (Snapshooter σ L')
  | [] => []
  | s :: ss => s.rename :: renameSnapshooters ss
end

def Cockpit.rename (c : Cockpit σ L) : Cockpit σ L' where
  head := c.head
  panels := c.panels.map (·.rename f g)
  handlers := c.handlers.map (·.rename f g)
  snapshooters := c.snapshooters.map (·.rename f g)

def Message.rename : Message σ L → Message σ L'
  | .observation o => .observation (o.relabel f)
  | .addCockpit c => .addCockpit (c.rename f g)
  | .removeCockpit n => .removeCockpit n
  | .addHandler h => .addHandler (h.rename f g)
  | .addPanelToCockpit n p => .addPanelToCockpit n (p.rename f g)
  | .removePanelFromCockpit n m => .removePanelFromCockpit n m

/-- The same channel and threads with other messages. -/
def Channel.map {μ ν : Type} (h : μ → ν) (c : Channel μ) : Channel ν where
  queue := c.queue.map fun x => (x.1, h x.2)
  cap := c.cap
  useSend := c.useSend
  receiver := c.receiver
  threads := c.threads.map fun t => { todo := t.todo.map h, drops := t.drops, holds := t.holds }
  log := c.log.map fun x => { thread := x.thread, message := h x.message, accepted := x.accepted }
  taken := c.taken.map fun x => (x.1, h x.2)

def Receiver.map {μ ν : Type} (h : μ → ν) (r : Receiver μ) : Receiver ν := { chan := r.chan.map h, ahead := r.ahead }

def Processor.rename (p : Processor σ L) : Processor σ L' where
  state :=
    { name := p.state.name, descr := p.state.descr, cockpits := p.state.cockpits.map (·.rename f g),
      handlers := p.state.handlers.map (·.rename f g), snapshooters := p.state.snapshooters.map (·.rename f g),
      activity := p.state.activity }
  receiver := p.receiver.map (·.rename f g)
  isDisconnected := p.isDisconnected

mutual
def Node.rename : Node σ L → Node σ L'
  | .processor p => .processor (p.rename f g)
  | .mount h ns ss => .mount h (renameNodes ns) (ss.map (·.rename f g))
  | .attached h ns ss inbox => .attached h (renameNodes ns) (ss.map (·.rename f g)) (renameArrivals inbox)
  | .driver as => .driver as
  | .custom s => .custom s
def renameNodes : List (Node σ L) → List (Node σ L')
  | [] => []
  | n :: ns => n.rename :: renameNodes ns
def renameArrivals : List (Arrivals (Node σ L) (Snapshooter σ L)) → List (Arrivals (Node σ L') (Snapshooter σ L'))
  | [] => []
  | ⟨ns, ss, closed⟩ :: as => ⟨renameNodes ns, ss.map (·.rename f g), closed⟩ :: renameArrivals as
end

def DriverMsg.rename : DriverMsg σ L → DriverMsg σ L'
  | .addProcessor n => .addProcessor (n.rename f g)
  | .addSnapshooter s => .addSnapshooter (s.rename f g)
  | .getSnapshot id d => .getSnapshot id d
  | .setStrategy s => .setStrategy s
  | .pause => .pause
  | .resume => .resume

def DriverThread.rename : DriverThread σ L → DriverThread σ L'
  | .running l => .running
    { state :=
        { name := l.state.name, descr := l.state.descr, metrics := l.state.metrics,
          lastOutcomeLogged := l.state.lastOutcomeLogged, droppedSinceLastLogged := l.state.droppedSinceLastLogged,
          processors := l.state.processors.map (·.rename f g), snapshooters := l.state.snapshooters.map (·.rename f g),
          strategy := l.state.strategy, paused := l.state.paused, warned := l.state.warned }
      receiver := l.receiver.map (·.rename f g)
      blind := l.blind }
  | .ended c => .ended (c.map (·.rename f g))

end Rename

/-! ## What is seen -/

omit [DecidableEq L'] in
/-- The results of calls, one after the other. -/
def Node.results [Custom σ L] [CustomProcessor σ] (n : Node σ L) : List NodeCall → M (List Reply)
  | [] => return []
  | .process max strategy :: cs => do
    let (n, o) ← n.process max strategy
    let rs ← n.results cs
    return .outcome o :: rs
  | .snapshot into d :: cs => do
    let (n, s) ← n.putSnapshot d into
    let rs ← n.results cs
    return .snapshot s :: rs

/-- What an iteration of a driver let others see. -/
structure IterationReport where
  answered : Option (Nat × Snapshot)
  outcome : Option Outcome
  rest : Option Nap

omit [DecidableEq L] [DecidableEq L'] in
def Iteration.report (i : Iteration σ L) : IterationReport :=
  { answered := i.answered, outcome := i.outcome, rest := i.rest }

end Metrix
