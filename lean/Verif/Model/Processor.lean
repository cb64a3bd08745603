import Verif.Model.Channel

/-!
# Processors: `src/processor.rs`
-/

namespace Metrix

/-- `src/processor.rs:43-67` (`TelemetryMessage`). -/
inductive Message (σ L : Type)
  | observation (o : Observation L)
  | addCockpit (c : Cockpit σ L)
  | removeCockpit (name : String)
  | addHandler (h : Handler σ L)
  | addPanelToCockpit (cockpitName : String) (p : Panel σ L)
  | removePanelFromCockpit (cockpitName panelName : String)

/-- `src/processor.rs:74-79` (`ProcessingOutcome`). The sums of `combine_with` (81-88) are exact here; an overflow
would need more than 2^64 messages. -/
structure Outcome where
  processed : Nat := 0
  dropped : Nat := 0
  instrumentsUpdated : Nat := 0
  observationsEnqueued : Nat := 0
  deriving DecidableEq

/-- `src/processor.rs:83-88` (`combine_with`). -/
def Outcome.combineWith (a b : Outcome) : Outcome where
  processed := a.processed + b.processed
  dropped := a.dropped + b.dropped
  instrumentsUpdated := a.instrumentsUpdated + b.instrumentsUpdated
  observationsEnqueued := a.observationsEnqueued + b.observationsEnqueued

/-- `src/processor.rs:90-92` (`something_happened`). -/
def Outcome.somethingHappened (o : Outcome) : Bool := decide (o.processed > 0) || decide (o.dropped > 0)

/-- `src/processor.rs:108-120` (`ProcessingStrategy`). `maxAge` in nanoseconds. -/
inductive Strategy
  | processAll
  | dropAll
  | dropOlderThan (maxAge : Nat) (dropDeltas : Bool)
  deriving DecidableEq

/-- `src/processor.rs:138-145` (`Default for ProcessingStrategy`). -/
def Strategy.default : Strategy := .dropOlderThan (30 * nanosPerSec) false

/-- `src/processor.rs:147-155` (`ProcessingDecider`). -/
inductive Decider
  | processAll
  | dropAll
  | dropBeforeDeadline (deadline : Int) (dropDeltas : Bool)
  deriving DecidableEq

/-- `src/processor.rs:123-135` (`decider`). -/
def Strategy.decider : Strategy → M Decider
  | .processAll => return .processAll
  | .dropAll => return .dropAll
  | .dropOlderThan maxAge dropDeltas => do
    let deadline ← subDur (← M.now) maxAge
    return .dropBeforeDeadline deadline dropDeltas

/-- `src/processor.rs:158-175` (`should_be_processed`). -/
def Decider.shouldBeProcessed {L : Type} (d : Decider) (o : Observation L) : Bool :=
  match d with
  | .processAll => true
  | .dropAll => false
  | .dropBeforeDeadline deadline dropDeltas =>
    if o.timestamp ≥ deadline then true
    else if dropDeltas then false
    else o.isDelta

/-- `src/processor.rs:197-209` (`TelemetryProcessor`) without the receiver and `is_disconnected`. -/
structure ProcessorState (σ L : Type) where
  name : Option String := none
  descr : Descr := {}
  cockpits : List (Cockpit σ L) := []
  handlers : List (Handler σ L) := []
  snapshooters : List (Snapshooter σ L) := []
  activity : Activity

/-- `src/processor.rs:197-209` (`TelemetryProcessor`). -/
structure Processor (σ L : Type) where
  state : ProcessorState σ L
  receiver : Receiver (Message σ L)
  isDisconnected : Bool := false

variable {σ L : Type}

namespace ProcessorState

/-- `src/processor.rs:311-322` (`add_cockpit`). -/
def addCockpit (s : ProcessorState σ L) (c : Cockpit σ L) : ProcessorState σ L :=
  match c.name with
  | some name =>
    if s.cockpits.any fun d => match d.name with
        | some n => n == name
        | none => false
    then s
    else { s with cockpits := s.cockpits ++ [c] }
  | none => { s with cockpits := s.cockpits ++ [c] }

/-- `src/processor.rs:324-327` (`remove_cockpit`). -/
def removeCockpit (s : ProcessorState σ L) (name : String) : ProcessorState σ L :=
  { s with cockpits := s.cockpits.filter fun c => match c.name with
      | some n => n != name
      | none => true }

/-- `src/processor.rs:356-358` (`add_handler`); also the message `AddHandler` (530-533). -/
def addHandler (s : ProcessorState σ L) (h : Handler σ L) : ProcessorState σ L :=
  { s with handlers := s.handlers ++ [h] }

/-- `src/processor.rs:384-386` (`add_snapshooter`). -/
def addSnapshooter (s : ProcessorState σ L) (x : Snapshooter σ L) : ProcessorState σ L :=
  { s with snapshooters := s.snapshooters ++ [x] }

/-- `cockpits.iter_mut().find(|c| c.get_name() == Some(&name))` and a change of what was found
(`src/processor.rs:538-544, 551-557`). -/
def modifyFirst (name : String) (f : Cockpit σ L → Cockpit σ L) : List (Cockpit σ L) → List (Cockpit σ L)
  | [] => []
  | c :: cs => if c.name == some name then f c :: cs else c :: modifyFirst name f cs

/-- `src/processor.rs:423-425` (`set_name`). -/
def setName (s : ProcessorState σ L) (n : String) : ProcessorState σ L := { s with name := some n }

/-- `src/processor.rs:429-431` (`set_inactivity_limit`). -/
def setInactivityLimit (s : ProcessorState σ L) (d : Nat) : ProcessorState σ L :=
  { s with activity := { s.activity with maxInactivity := some d } }

/-- `src/processor.rs:445-447` (`set_show_activity_state`). -/
def setShowActivityState (s : ProcessorState σ L) (b : Bool) : ProcessorState σ L :=
  { s with activity := { s.activity with show_ := b } }

end ProcessorState

/-- `src/processor.rs:270-304` (`create`), without the transmitter. -/
def Processor.create (name : Option String) (receiver : Receiver (Message σ L)) : M (Processor σ L) := do
  return { state := { name, activity := { lastActivity := ← M.now } }, receiver }

variable [DecidableEq L] [Custom σ L]

/-- `self.cockpits.iter_mut().for_each(|c| instruments_updated += c.handle_observation(&obs))`
(`src/processor.rs:511-513`). -/
def handleCockpits (o : Observation L) : List (Cockpit σ L) → M (List (Cockpit σ L) × Nat)
  | [] => return ([], 0)
  | c :: cs => do
    let (c, n) ← c.handle o
    let (cs, m) ← handleCockpits o cs
    return (c :: cs, n + m)

/-- `self.cockpits.iter().for_each(|c| c.put_snapshot(into, descriptive))` (`src/processor.rs:479-481`). -/
def putCockpits (d : Bool) : List (Cockpit σ L) → Snapshot → M (List (Cockpit σ L) × Snapshot)
  | [], into => return ([], into)
  | c :: cs, into => do
    let (c, into) ← c.putSnapshot into d
    let (cs, into) ← putCockpits d cs into
    return (c :: cs, into)

/-- The local variables `processed`, `dropped` and `instruments_updated` of `src/processor.rs:503-505`. -/
structure Tally where
  processed : Nat := 0
  dropped : Nat := 0
  updated : Nat := 0
  deriving DecidableEq

/-- The arms `src/processor.rs:509-559` for a received message. -/
def ProcessorState.receive (decider : Decider) (s : ProcessorState σ L) (t : Tally) :
    Message σ L → M (ProcessorState σ L × Tally)
  | .observation o =>
    if decider.shouldBeProcessed o then do
      let (cockpits, n) ← handleCockpits o s.cockpits
      let (handlers, m) ← handleHandlers o s.handlers
      return ({ s with cockpits, handlers },
        { t with processed := t.processed + 1, updated := t.updated + n + m })
    else return (s, { t with dropped := t.dropped + 1 })
  | .addCockpit c => return (s.addCockpit c, { t with processed := t.processed + 1 })
  | .removeCockpit name => return (s.removeCockpit name, { t with processed := t.processed + 1 })
  | .addHandler h => return (s.addHandler h, { t with processed := t.processed + 1 })
  | .addPanelToCockpit cockpitName p =>
    return ({ s with cockpits := ProcessorState.modifyFirst cockpitName (·.addPanel p) s.cockpits },
      { t with processed := t.processed + 1 })
  | .removePanelFromCockpit cockpitName panelName =>
    return ({ s with cockpits := ProcessorState.modifyFirst cockpitName (·.removePanel panelName) s.cockpits },
      { t with processed := t.processed + 1 })

/-- The loop `src/processor.rs:507-572`. The first argument is `max - num_received`. An empty queue does not end
it. -/
def Processor.receiveLoop (decider : Decider) : Nat → Processor σ L → Tally → M (Processor σ L × Tally)
  | 0, p, t => return (p, t)
  | n + 1, p, t =>
    match p.receiver.tryRecv with
    | (receiver, .ok msg) => do
      let (state, t) ← p.state.receive decider t msg
      receiveLoop decider n { p with state, receiver } t
    | (receiver, .empty) => receiveLoop decider n { p with receiver } t
    | (receiver, .disconnected) => return ({ p with receiver, isDisconnected := true }, t)

/-- `src/processor.rs:497-586` (`process`). -/
def Processor.process (p : Processor σ L) (max : Nat) (strategy : Strategy) : M (Processor σ L × Outcome) :=
  if p.isDisconnected then return (p, {})
  else do
    let decider ← strategy.decider
    let (p, t) ← p.receiveLoop decider max {}
    let (receiver, enqueued) := p.receiver.len
    let p := { p with receiver }
    let outcome : Outcome :=
      { processed := t.processed, dropped := t.dropped, instrumentsUpdated := t.updated,
        observationsEnqueued := enqueued }
    if outcome.somethingHappened then
      let now ← M.now
      return ({ p with state := { p.state with activity := { p.state.activity with lastActivity := now } } }, outcome)
    else return (p, outcome)

omit [DecidableEq L] in
/-- `src/processor.rs:459-490, 593-602` (`put_values_into_snapshot`, `PutsSnapshot for TelemetryProcessor`). -/
def ProcessorState.putSnapshot (s : ProcessorState σ L) (into : Snapshot) (d : Bool) :
    M (ProcessorState σ L × Snapshot) := do
  let level := putDefaultDescriptives s.descr (levelFor s.name into) d
  let (go, level) ← s.activity.putFlags level
  if go then
    let (cockpits, level) ← putCockpits d s.cockpits level
    let (handlers, level) ← putHandlers d s.handlers level
    let (snapshooters, level) ← putSnapshooters d s.snapshooters level
    return ({ s with cockpits, handlers, snapshooters }, closeLevel s.name into level)
  else return (s, closeLevel s.name into level)

omit [DecidableEq L] in
/-- `src/processor.rs:593-602` (`PutsSnapshot for TelemetryProcessor`): the receiver plays no role. -/
def Processor.putSnapshot (p : Processor σ L) (into : Snapshot) (d : Bool) : M (Processor σ L × Snapshot) := do
  let (state, into) ← p.state.putSnapshot into d
  return ({ p with state }, into)

end Metrix
